import Verif.Proof.Wp
import Verif.SpecNtl

/-!
# Reasoning rules for programs with random bits (helper lemmas)
-/
namespace WB.ntl

variable {α β σ : Type} {s : Rnd}

/-- `x` returns and its result satisfies `Q`, or it is still waiting for other random bits. -/
def Run (x : NM α) (s : Rnd) (Q : α → Prop) : Prop := (∃ a s', x s = .ok (a, s') ∧ Q a) ∨ x s = .error .diverge

theorem NM_bind {x : NM α} {f : α → NM β} {a : α} {s' : Rnd} (h : x s = .ok (a, s')) : (x >>= f) s = f a s' := by
  show (x s >>= fun p => f p.1 p.2) = _
  rw [h]; rfl

theorem NM_bind_err {x : NM α} {f : α → NM β} {e : Fault} (h : x s = .error e) : (x >>= f) s = .error e := by
  show (x s >>= fun p => f p.1 p.2) = _
  rw [h]; rfl

theorem NM_pure (a : α) : (pure a : NM α) s = .ok (a, s) := rfl

theorem liftC_run {x : C α} {a : α} (h : x = .ok a) : liftC x s = .ok (a, s) := by rw [h]; rfl

theorem liftC_err {x : C α} {e : Fault} (h : x = .error e) : liftC x s = .error e := by rw [h]; rfl

namespace Run

theorem mono {x : NM α} {Q Q' : α → Prop} (h : Run x s Q) (hq : ∀ a, Q a → Q' a) : Run x s Q' := by
  rcases h with ⟨a, s', e, h⟩ | h
  · exact .inl ⟨a, s', e, hq a h⟩
  · exact .inr h

theorem bind {x : NM α} {f : α → NM β} {P : α → Prop} {Q : β → Prop} (h : Run x s P)
    (hf : ∀ a s', P a → Run (f a) s' Q) : Run (x >>= f) s Q := by
  rcases h with ⟨a, s', e, h⟩ | h
  · have := hf a s' h
    unfold Run
    rw [NM_bind e]
    exact this
  · exact .inr (NM_bind_err h)

theorem pure {a : α} {Q : α → Prop} (h : Q a) : Run (Pure.pure a) s Q := .inl ⟨a, s, rfl, h⟩

theorem lift {x : C α} {Q : α → Prop} (h : Ok x Q) : Run (liftC x) s Q := by
  obtain ⟨a, e, h⟩ := h
  exact .inl ⟨a, s, liftC_run e, h⟩

theorem step {x : C α} {f : α → NM β} {a : α} {Q : β → Prop} (e : x = .ok a) (h : Run (f a) s Q) :
    Run (liftC x >>= f) s Q := by
  unfold Run
  rw [NM_bind (liftC_run e)]
  exact h

theorem of_eq {x : NM α} {a : α} {s' : Rnd} {Q : α → Prop} (e : x s = .ok (a, s')) (h : Q a) : Run x s Q :=
  .inl ⟨a, s', e, h⟩

theorem foldlM {f : Nat → σ → NM σ} (P : Nat → σ → Prop) : ∀ (len lo : Nat) (t : σ) (s : Rnd), P lo t →
    (∀ i t s, lo ≤ i → i < lo + len → P i t → Run (f i t) s (P (i + 1))) →
    Run ((List.range' lo len).foldlM (fun t i => f i t) t) s (P (lo + len))
  | 0, lo, t, s, h0, _ => by rw [List.range'_zero, List.foldlM_nil]; exact Run.pure h0
  | len + 1, lo, t, s, h0, hs => by
    rw [List.range'_succ, List.foldlM_cons]
    refine Run.bind (hs lo t s (Nat.le_refl _) (by omega) h0) fun t' s' h' => ?_
    have := foldlM P len (lo + 1) t' s' h' (fun i t s h1 h2 hp => hs i t s (by omega) (by omega) hp)
    rwa [show lo + (len + 1) = lo + 1 + len by omega]

theorem forUp {hi : Nat} {t : σ} {f : Nat → σ → NM σ} {Q : σ → Prop} (P : Nat → σ → Prop) (h0 : P 0 t)
    (hs : ∀ i t s, i < hi → P i t → Run (f i t) s (P (i + 1))) (hq : ∀ t, P hi t → Q t) : Run (WB.forUp 0 hi t f) s Q := by
  have := foldlM (f := f) P hi 0 t s h0 (fun i t s _ h2 hp => hs i t s (by omega) hp)
  rw [Nat.zero_add] at this
  exact this.mono hq

end Run

/-- A loop whose states are known. -/
theorem forUp_eq {hi : Nat} {f : Nat → σ → NM σ} (t : Nat → σ) (u : Nat → Rnd)
    (h : ∀ k, k < hi → f k (t k) (u k) = .ok (t (k + 1), u (k + 1))) : WB.forUp 0 hi (t 0) f (u 0) = .ok (t hi, u hi) := by
  have : ∀ len lo, (∀ k, lo ≤ k → k < lo + len → f k (t k) (u k) = .ok (t (k + 1), u (k + 1))) →
      (List.range' lo len).foldlM (fun x i => f i x) (t lo) (u lo) = .ok (t (lo + len), u (lo + len)) := by
    intro len
    induction len with
    | zero => intro lo _; rfl
    | succ len ih =>
      intro lo h
      rw [List.range'_succ, List.foldlM_cons, NM_bind (h lo (Nat.le_refl _) (by omega)),
        ih (lo + 1) (fun k h1 h2 => h k (by omega) (by omega)), show lo + 1 + len = lo + (len + 1) by omega]
  have h2 := this hi 0 (fun k _ h2 => h k (by omega))
  rw [Nat.zero_add] at h2
  exact h2

/-- A loop without random bits whose states are known. -/
theorem forUpC_eq {hi : Nat} {f : Nat → σ → C σ} (t : Nat → σ) (h : ∀ k, k < hi → f k (t k) = .ok (t (k + 1))) :
    WB.forUp 0 hi (t 0) f = .ok (t hi) :=
  Ok.eq.1 (Ok.forUp (fun k x => x = t k) (Nat.zero_le _) rfl (fun k x _ hk e => by subst e; exact Ok.eq.2 (h k hk)) fun _ e => e)

/-- A loop that counts down, without random bits, whose states are known. -/
theorem forDownC_eq {hi : Nat} {f : Nat → σ → C σ} (t : Nat → σ) (h : ∀ k, k < hi → f k (t (k + 1)) = .ok (t k)) :
    WB.forDown hi 0 (t hi) f = .ok (t 0) :=
  Ok.eq.1 (Ok.forDown (fun k x => x = t k) (Nat.zero_le _) rfl (fun k x _ hk e => by subst e; exact Ok.eq.2 (h k hk))
    fun _ e => e)

/-! ## Which results are possible -/

/-- With suitable random bits from position `p` on, `x` returns, and the result satisfies `Q`. -/
def Can (x : NM α) (Q : α → Prop) : Prop :=
  ∀ p, ∃ (l : List (ZMod 2)) (a : α), Q a ∧ ∀ s : Rnd, s.pos = p → (∀ k (h : k < l.length), s.bits (p + k) = l[k]) →
    x s = .ok (a, { s with pos := p + l.length })

namespace Can

theorem pure {a : α} {Q : α → Prop} (h : Q a) : Can (Pure.pure a) Q := fun p => ⟨[], a, h, by rintro ⟨b, _⟩ rfl _; rfl⟩

theorem lift {x : C α} {Q : α → Prop} (h : Ok x Q) : Can (liftC x) Q := by
  obtain ⟨a, e, h⟩ := h
  exact fun p => ⟨[], a, h, by rintro ⟨b, _⟩ rfl _; exact liftC_run e⟩

theorem bind {x : NM α} {f : α → NM β} {P : α → Prop} {Q : β → Prop} (h : Can x P) (hf : ∀ a, P a → Can (f a) Q) :
    Can (x >>= f) Q := by
  intro p
  obtain ⟨l, a, ha, h⟩ := h p
  obtain ⟨l', b, hb, h'⟩ := hf a ha (p + l.length)
  refine ⟨l ++ l', b, hb, ?_⟩
  rintro ⟨bits, _⟩ rfl hbits
  have h1 := h ⟨bits, _⟩ rfl fun k hk => by
    rw [hbits k (by rw [List.length_append]; omega), List.getElem_append_left]
  rw [NM_bind h1, h' _ rfl ?_]
  · simp only [List.length_append, Nat.add_assoc]
  · intro k hk
    have := hbits (l.length + k) (by rw [List.length_append]; omega)
    simp only at this ⊢
    rw [Nat.add_assoc, this, List.getElem_append_right (by omega)]
    simp

theorem mono {x : NM α} {Q Q' : α → Prop} (h : Can x Q) (hq : ∀ a, Q a → Q' a) : Can x Q' := by
  intro p
  obtain ⟨l, a, ha, h⟩ := h p
  exact ⟨l, a, hq a ha, h⟩

theorem foldlM {f : Nat → σ → NM σ} (P : Nat → σ → Prop) : ∀ (len lo : Nat) (t : σ), P lo t →
    (∀ i t, lo ≤ i → i < lo + len → P i t → Can (f i t) (P (i + 1))) →
    Can ((List.range' lo len).foldlM (fun t i => f i t) t) (P (lo + len))
  | 0, lo, t, h0, _ => by rw [List.range'_zero, List.foldlM_nil]; exact Can.pure h0
  | len + 1, lo, t, h0, hs => by
    rw [List.range'_succ, List.foldlM_cons]
    refine Can.bind (hs lo t (Nat.le_refl _) (by omega) h0) fun t' h' => ?_
    have := foldlM P len (lo + 1) t' h' (fun i t h1 h2 hp => hs i t (by omega) (by omega) hp)
    rwa [show lo + (len + 1) = lo + 1 + len by omega]

theorem forUp {hi : Nat} {t : σ} {f : Nat → σ → NM σ} (P : Nat → σ → Prop) (h0 : P 0 t)
    (hs : ∀ i t, i < hi → P i t → Can (f i t) (P (i + 1))) : Can (WB.forUp 0 hi t f) (P hi) := by
  have := foldlM (f := f) P hi 0 t h0 (fun i t _ h2 hp => hs i t (by omega) hp)
  rwa [Nat.zero_add] at this

/-- From any state on there are bits with which the function returns. -/
theorem exists_bits {x : NM α} {Q : α → Prop} (h : Can x Q) (p : Nat) :
    ∃ bits a s', x ⟨bits, p⟩ = .ok (a, s') ∧ Q a := by
  obtain ⟨l, a, ha, h⟩ := h p
  refine ⟨fun k => l.getD (k - p) 0, a, _, h ⟨_, p⟩ rfl ?_, ha⟩
  intro k hk
  simp only [Nat.add_sub_cancel_left]
  simp [hk]

end Can

end WB.ntl
