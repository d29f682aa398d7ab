import Verif.Proof.Wp
import Verif.SpecCmp

/-!
# Reasoning rules for the programs that the library is compared with (helper lemmas)
-/
namespace WB.cmp

variable {α β σ : Type} {s : Heap} {E : Fault → Prop}

/-- `x` returns and its result satisfies `Q`, or it ends with one of the faults in `E`. -/
def Res (E : Fault → Prop) (x : HM α) (s : Heap) (Q : α → Heap → Prop) : Prop :=
  (∃ a s', x s = .ok (a, s') ∧ Q a s') ∨ ∃ e, E e ∧ x s = .error e

/-- A signed overflow, which is only possible if `H` does not hold. -/
def Ovf (H : Prop) (e : Fault) : Prop := e = .overflow ∧ ¬ H

theorem HM_bind {x : HM α} {f : α → HM β} {a : α} {s' : Heap} (h : x s = .ok (a, s')) : (x >>= f) s = f a s' := by
  show (x s >>= fun p => f p.1 p.2) = _
  rw [h]; rfl

theorem HM_bind_err {x : HM α} {f : α → HM β} {e : Fault} (h : x s = .error e) : (x >>= f) s = .error e := by
  show (x s >>= fun p => f p.1 p.2) = _
  rw [h]; rfl

theorem liftC_run {x : C α} {a : α} (h : x = .ok a) : liftC x s = .ok (a, s) := by rw [h]; rfl

theorem liftC_err {x : C α} {e : Fault} (h : x = .error e) : liftC x s = .error e := by rw [h]; rfl

namespace Res

theorem mono {x : HM α} {Q Q' : α → Heap → Prop} (h : Res E x s Q) (hq : ∀ a s, Q a s → Q' a s) : Res E x s Q' := by
  rcases h with ⟨a, s', e, h⟩ | h
  · exact .inl ⟨a, s', e, hq a s' h⟩
  · exact .inr h

theorem weaken {E' : Fault → Prop} {x : HM α} {Q : α → Heap → Prop} (hh : ∀ e, E' e → E e) (h : Res E' x s Q) : Res E x s Q := by
  rcases h with h | ⟨e, h, he⟩
  · exact .inl h
  · exact .inr ⟨e, hh e h, he⟩

theorem bind {x : HM α} {f : α → HM β} {P : α → Heap → Prop} {Q : β → Heap → Prop} (h : Res E x s P)
    (hf : ∀ a s', P a s' → Res E (f a) s' Q) : Res E (x >>= f) s Q := by
  rcases h with ⟨a, s', e, h⟩ | ⟨e, h, he⟩
  · have := hf a s' h
    unfold Res
    rw [HM_bind e]
    exact this
  · exact .inr ⟨e, h, HM_bind_err he⟩

theorem pure {a : α} {Q : α → Heap → Prop} (h : Q a s) : Res E (Pure.pure a) s Q := .inl ⟨a, s, rfl, h⟩

theorem lift {x : C α} {f : α → HM β} {P : α → Prop} {Q : β → Heap → Prop} (h : Ok x P) (hf : ∀ a, P a → Res E (f a) s Q) :
    Res E (liftC x >>= f) s Q := by
  obtain ⟨a, e, h⟩ := h
  have := hf a h
  unfold Res
  rw [HM_bind (liftC_run e)]
  exact this

theorem step {x : C α} {f : α → HM β} {a : α} {Q : β → Heap → Prop} (e : x = .ok a) (h : Res E (f a) s Q) :
    Res E (liftC x >>= f) s Q := by
  unfold Res
  rw [HM_bind (liftC_run e)]
  exact h

theorem int32 {x : Int} {f : Int → HM β} {Q : β → Heap → Prop} (hx : |x| ≤ 2147483647 ∨ E .overflow)
    (h : Res E (f x) s Q) : Res E (liftC (cmp.int32 x) >>= f) s Q := by
  by_cases c : -2147483648 ≤ x ∧ x ≤ 2147483647
  · exact step (by rw [cmp.int32, if_pos c]) h
  · refine .inr ⟨.overflow, hx.resolve_left fun hh => c ?_, HM_bind_err (liftC_err (by rw [cmp.int32, if_neg c]))⟩
    have := abs_le.1 hh
    omega

theorem malloc {junk : Junk α} {n : Nat} {f : Mem α → HM β} {Q : β → Heap → Prop}
    (h : Res E (f ⟨n, junk s.next⟩) ⟨s.next + 1, s.live + 1⟩ Q) : Res E (cmp.malloc junk n >>= f) s Q := h

theorem free {f : Unit → HM β} {Q : β → Heap → Prop} (h : Res E (f ()) { s with live := s.live - 1 } Q) :
    Res E (cmp.free >>= f) s Q := h

theorem foldlM {f : Nat → σ → HM σ} (P : Nat → σ → Heap → Prop) : ∀ (len lo : Nat) (t : σ) (s : Heap), P lo t s →
    (∀ i t s, lo ≤ i → i < lo + len → P i t s → Res E (f i t) s (P (i + 1))) →
    Res E ((List.range' lo len).foldlM (fun t i => f i t) t) s (P (lo + len))
  | 0, lo, t, s, h0, _ => by rw [List.range'_zero, List.foldlM_nil]; exact Res.pure h0
  | len + 1, lo, t, s, h0, hs => by
    rw [List.range'_succ, List.foldlM_cons]
    refine Res.bind (hs lo t s (Nat.le_refl _) (by omega) h0) fun t' s' h' => ?_
    have := foldlM P len (lo + 1) t' s' h' (fun i t s h1 h2 hp => hs i t s (by omega) (by omega) hp)
    rwa [show lo + (len + 1) = lo + 1 + len by omega]

theorem forUp {hi : Nat} {t : σ} {f : Nat → σ → HM σ} {Q : σ → Heap → Prop} (P : Nat → σ → Heap → Prop) (h0 : P 0 t s)
    (hs : ∀ i t s, i < hi → P i t s → Res E (f i t) s (P (i + 1))) (hq : ∀ t s, P hi t s → Q t s) :
    Res E (WB.forUp 0 hi t f) s Q := by
  have := foldlM (f := f) P hi 0 t s h0 (fun i t s _ h2 hp => hs i t s (by omega) hp)
  rw [Nat.zero_add] at this
  exact this.mono hq

theorem ok {H : Prop} (h : H) {x : HM α} {Q : α → Heap → Prop} (hx : Res (Ovf H) x s Q) : ∃ a s', x s = .ok (a, s') ∧ Q a s' :=
  hx.resolve_right fun ⟨_, h', _⟩ => h'.2 h

theorem of_ok {x : HM α} {Q : α → Heap → Prop} (hx : Res E x s Q) {a : α} {s' : Heap} (e : x s = .ok (a, s')) : Q a s' := by
  rcases hx with ⟨a', s'', e', h⟩ | ⟨_, _, e'⟩
  · rw [e] at e'
    cases e'
    exact h
  · rw [e] at e'; cases e'

/-- Two nested loops that write every element once. -/
theorem fill {n m : Nat} {t : σ} {f : Nat → Nat → σ → HM σ} (look : σ → Nat → Nat → α) (F : Nat → Nat → α)
    (Good : Nat → σ → Heap → Prop) (h0 : Good 0 t s)
    (h : ∀ i j t s, i < n → j < m → Good (i * m + j) t s → Res E (f i j t) s fun t' s' => Good (i * m + j + 1) t' s' ∧
      look t' i j = F i j ∧ ∀ k l, k < n → l < m → (k ≠ i ∨ l ≠ j) → look t' k l = look t k l) :
    Res E (WB.forUp 0 n t fun i t => WB.forUp 0 m t fun j t => f i j t) s fun t' s' => Good (n * m) t' s' ∧
      ∀ i j, i < n → j < m → look t' i j = F i j := by
  refine forUp (P := fun i t s => Good (i * m) t s ∧ ∀ k l, k < n → l < m → k < i → look t k l = F k l) ?_ ?_ ?_
  · exact ⟨by rwa [Nat.zero_mul], fun _ _ _ _ h => absurd h (by omega)⟩
  · intro i t s hi ⟨hg, hl⟩
    refine forUp (P := fun j t s => Good (i * m + j) t s ∧
      ∀ k l, k < n → l < m → (k < i ∨ k = i ∧ l < j) → look t k l = F k l) ?_ ?_ ?_
    · exact ⟨hg, fun k l h1 h2 h3 => hl k l h1 h2 (by omega)⟩
    · intro j t s hj ⟨hg, hl⟩
      refine (h i j t s hi hj hg).mono fun t' s' ⟨a, b, c⟩ => ⟨a, fun k l h1 h2 h3 => ?_⟩
      by_cases hk : k = i ∧ l = j
      · rw [hk.1, hk.2, b]
      · rw [c k l h1 h2 (by omega), hl k l h1 h2 (by omega)]
    · intro t s ⟨hg, hl⟩
      exact ⟨by rwa [Nat.succ_mul], fun k l h1 h2 h3 => hl k l h1 h2 (by omega)⟩
  · intro t s ⟨hg, hl⟩
    exact ⟨hg, fun k l h1 h2 => hl k l h1 h2 h1⟩

end Res

/-- Two nested loops that write every element once. -/
theorem fill {n m : Nat} {t : σ} {f : Nat → Nat → σ → C σ} (look : σ → Nat → Nat → α) (F : Nat → Nat → α) (Good : σ → Prop)
    (h0 : Good t)
    (h : ∀ i j t, i < n → j < m → Good t → Ok (f i j t) fun t' => Good t' ∧
      look t' i j = F i j ∧ ∀ k l, k < n → l < m → (k ≠ i ∨ l ≠ j) → look t' k l = look t k l) :
    Ok (WB.forUp 0 n t fun i t => WB.forUp 0 m t fun j t => f i j t) fun t' => Good t' ∧
      ∀ i j, i < n → j < m → look t' i j = F i j := by
  refine Ok.forUp (P := fun i t => Good t ∧ ∀ k l, k < n → l < m → k < i → look t k l = F k l) (Nat.zero_le _) ?_ ?_ ?_
  · exact ⟨h0, fun _ _ _ _ h => absurd h (by omega)⟩
  · intro i t _ hi ⟨hg, hl⟩
    refine Ok.forUp (P := fun j t => Good t ∧
      ∀ k l, k < n → l < m → (k < i ∨ k = i ∧ l < j) → look t k l = F k l) (Nat.zero_le _) ?_ ?_ ?_
    · exact ⟨hg, fun k l h1 h2 h3 => hl k l h1 h2 (by omega)⟩
    · intro j t _ hj ⟨hg, hl⟩
      refine (h i j t hi hj hg).mono fun t' ⟨a, b, c⟩ => ⟨a, fun k l h1 h2 h3 => ?_⟩
      by_cases hk : k = i ∧ l = j
      · rw [hk.1, hk.2, b]
      · rw [c k l h1 h2 (by omega), hl k l h1 h2 (by omega)]
    · intro t ⟨hg, hl⟩
      exact ⟨hg, fun k l h1 h2 h3 => hl k l h1 h2 (by omega)⟩
  · intro t ⟨hg, hl⟩
    exact ⟨hg, fun k l h1 h2 => hl k l h1 h2 h1⟩

theorem forUp_err {n : Nat} {t : σ} {f : Nat → σ → C σ} {e : Fault} (h : f 0 t = .error e) :
    WB.forUp 0 (n + 1) t f = .error e := by
  show (List.range' 0 (n + 1)).foldlM (fun t i => f i t) t = _
  rw [List.range'_succ, List.foldlM_cons, h]
  rfl

/-! ## Blocks -/

@[simp] theorem Mem.Ok_get (a : Mem α) (i : Nat) (Q : α → Prop) : Ok (a.get i) Q ↔ i < a.size ∧ Q (a.cell i) := by
  unfold Mem.get
  by_cases h : i < a.size <;> simp [h]

@[simp] theorem Mem.Ok_put (a : Mem α) (i : Nat) (x : α) (Q : Mem α → Prop) :
    Ok (a.put i x) Q ↔ i < a.size ∧ Q ⟨a.size, fun k => if k = i then x else a.cell k⟩ := by
  unfold Mem.put
  by_cases h : i < a.size <;> simp [h]

@[simp] theorem Mem2.Ok_get (a : Mem2 α) (i j : Nat) (Q : α → Prop) :
    Ok (a.get i j) Q ↔ (i < a.rows ∧ j < a.cols) ∧ Q (a.cell i j) := by
  unfold Mem2.get
  by_cases h : i < a.rows ∧ j < a.cols <;> simp [h]

@[simp] theorem Mem2.Ok_put (a : Mem2 α) (i j : Nat) (x : α) (Q : Mem2 α → Prop) :
    Ok (a.put i j x) Q ↔
      (i < a.rows ∧ j < a.cols) ∧ Q ⟨a.rows, a.cols, fun k l => if k = i ∧ l = j then x else a.cell k l⟩ := by
  unfold Mem2.put
  by_cases h : i < a.rows ∧ j < a.cols <;> simp [h]

theorem Mem.get_eq {a : Mem α} {i : Nat} (h : i < a.size) : a.get i = .ok (a.cell i) := if_pos h

theorem idx_lt {n i j : Nat} (hi : i < n) (hj : j < n) : i * n + j < n * n := by
  have := Nat.mul_le_mul_right n hi
  rw [Nat.succ_mul] at this
  omega

theorem idx_ne {n i j k l : Nat} (hj : j < n) (hl : l < n) (h : k ≠ i ∨ l ≠ j) : k * n + l ≠ i * n + j := fun e => by
  have h1 : (k * n + l) / n = (i * n + j) / n := by rw [e]
  have h2 : (k * n + l) % n = (i * n + j) % n := by rw [e]
  rw [Nat.mul_comm k, Nat.mul_comm i, Nat.mul_add_div (by omega), Nat.mul_add_div (by omega), Nat.div_eq_of_lt hl,
    Nat.div_eq_of_lt hj] at h1
  rw [Nat.mul_comm k, Nat.mul_comm i, Nat.mul_add_mod, Nat.mul_add_mod, Nat.mod_eq_of_lt hl, Nat.mod_eq_of_lt hj] at h2
  omega

/-! ## Leaving out a row and a column -/

/-- The `a`-th index other than `p`. -/
def skip (p a : Nat) : Nat := if a < p then a else a + 1

/-- The number of indices below `i` other than `p`. -/
def cnt (p i : Nat) : Nat := if i ≤ p then i else i - 1

theorem skip_cnt {p i : Nat} (h : i ≠ p) : skip p (cnt p i) = i := by
  unfold skip cnt
  split <;> split <;> omega

theorem cnt_succ {p i : Nat} (h : i ≠ p) : cnt p (i + 1) = cnt p i + 1 := by
  unfold cnt
  split <;> split <;> omega

theorem cnt_succ_self {p : Nat} : cnt p (p + 1) = cnt p p := by
  unfold cnt
  split <;> split <;> omega

theorem cnt_le {p i : Nat} : cnt p i ≤ i := by
  unfold cnt
  split <;> omega

theorem cnt_lt {p i N : Nat} (h : i ≠ p) (hi : i ≤ N) (hp : p ≤ N) : cnt p i < N := by
  unfold cnt
  split <;> omega

theorem cnt_all {p N : Nat} (hp : p ≤ N) : cnt p (N + 1) = N := by
  unfold cnt
  split <;> omega

theorem divmod {N k w : Nat} (hw : w < N) : (k * N + w) / N = k ∧ (k * N + w) % N = w := by
  constructor
  · rw [Nat.mul_comm, Nat.mul_add_div (by omega), Nat.div_eq_of_lt hw, Nat.add_zero]
  · rw [Nat.mul_comm, Nat.mul_add_mod, Nat.mod_eq_of_lt hw]

theorem next_wrap {N t : Nat} (h : ¬ t % N + 1 < N) (hN : 0 < N) : (t + 1) / N = t / N + 1 ∧ (t + 1) % N = 0 := by
  have h1 := Nat.mod_lt t hN
  have h2 := Nat.div_add_mod t N
  have h3 : t + 1 = (t / N + 1) * N + 0 := by rw [Nat.add_mul, Nat.mul_comm]; omega
  rw [h3]
  exact divmod hN

theorem next_same {N t : Nat} (h : t % N + 1 < N) : (t + 1) / N = t / N ∧ (t + 1) % N = t % N + 1 := by
  have h2 := Nat.div_add_mod t N
  have h3 : t + 1 = t / N * N + (t % N + 1) := by rw [Nat.mul_comm]; omega
  have := divmod (k := t / N) h
  rw [← h3] at this
  exact this

/-- A loop that collects the elements outside of row `p` and column `q` with two counters. -/
theorem minor_run {N p q : Nat} (hN : 0 < N) (hp : p ≤ N) (hq : q ≤ N)
    {body : Nat → Nat → σ × Nat × Nat → C (σ × Nat × Nat)} (look : σ → Nat → α) (A : Nat → Nat → α) (Good : σ → Prop)
    (h1 : ∀ i j t s, i ≤ N → j ≤ N → Good s → (i = p ∨ j = q) → t ≤ i * N + j →
      Ok (body i j (s, t / N, t % N)) fun r => ∃ s', r = (s', t / N, t % N) ∧ Good s' ∧ ∀ c, c < t → look s' c = look s c)
    (h2 : ∀ i j t s, i ≤ N → j ≤ N → Good s → i ≠ p → j ≠ q → t ≤ i * N + j → t < N * N →
      Ok (body i j (s, t / N, t % N)) fun r => ∃ s', r = (s', (t + 1) / N, (t + 1) % N) ∧ Good s' ∧
        (∀ c, c < t → look s' c = look s c) ∧ look s' t = A i j)
    {s : σ} (hs : Good s) :
    Ok (forUp 0 (N + 1) (s, 0, 0) fun i s => forUp 0 (N + 1) s fun j s => body i j s) fun r =>
      ∃ s' k w, r = (s', k, w) ∧ Good s' ∧ ∀ a b, a < N → b < N → look s' (a * N + b) = A (skip p a) (skip q b) := by
  let Inv : Nat → Nat → σ × Nat × Nat → Prop := fun i t r => ∃ s', r = (s', t / N, t % N) ∧ Good s' ∧
    ∀ c, c < t → look s' c = A (skip p (c / N)) (skip q (c % N))
  refine Ok.forUp (P := fun i r => Inv i (cnt p i * N) r) (Nat.zero_le _)
    ⟨s, by simp [cnt], hs, fun c hc => by simp [cnt] at hc⟩ (fun i r _ hi hr => ?_) ?_
  · refine Ok.forUp (P := fun j r => Inv i (cnt p i * N + if i = p then 0 else cnt q j) r) (Nat.zero_le _)
      (by simpa [cnt] using hr) (fun j r _ hj hr => ?_) (fun r hr => ?_)
    · obtain ⟨s', rfl, hg, hl⟩ := hr
      have hle : cnt p i * N + (if i = p then 0 else cnt q j) ≤ i * N + j := by
        have := Nat.mul_le_mul_right N (cnt_le (p := p) (i := i))
        have := cnt_le (p := q) (i := j)
        split <;> omega
      by_cases ht : i = p ∨ j = q
      · refine (h1 i j _ s' (by omega) (by omega) hg ht hle).mono ?_
        rintro r ⟨s'', rfl, hg', hl'⟩
        have e : (if i = p then 0 else cnt q (j + 1)) = if i = p then 0 else cnt q j := by
          split
          · rfl
          · rw [ht.resolve_left ‹_›, cnt_succ_self]
        rw [e]
        exact ⟨s'', rfl, hg', fun c hc => by rw [hl' c hc, hl c hc]⟩
      · have hip : i ≠ p := fun h => ht (.inl h)
        have hjq : j ≠ q := fun h => ht (.inr h)
        rw [if_neg hip] at hle hl ⊢
        rw [if_neg hip, cnt_succ hjq, ← Nat.add_assoc]
        have a1 := cnt_lt hip (by omega : i ≤ N) hp
        have a2 := cnt_lt hjq (by omega : j ≤ N) hq
        have hlt : cnt p i * N + cnt q j < N * N := by
          have := Nat.mul_le_mul_right N a1
          rw [Nat.succ_mul] at this
          omega
        refine (h2 i j _ s' (by omega) (by omega) hg hip hjq hle hlt).mono ?_
        rintro r ⟨s'', rfl, hg', hl', ht'⟩
        refine ⟨s'', rfl, hg', fun c hc => ?_⟩
        rcases Nat.lt_succ_iff_lt_or_eq.1 hc with hc | rfl
        · rw [hl' c hc, hl c hc]
        · rw [ht', (divmod a2).1, (divmod a2).2, skip_cnt hip, skip_cnt hjq]
    · rw [cnt_all hq] at hr
      by_cases hip : i = p
      · rw [if_pos hip, Nat.add_zero] at hr
        have e : cnt p (i + 1) = cnt p i := by rw [hip]; exact cnt_succ_self
        rw [e]
        exact hr
      · rw [if_neg hip] at hr
        rw [cnt_succ hip, Nat.succ_mul]
        exact hr
  · rintro r ⟨s', rfl, hg, hl⟩
    refine ⟨s', _, _, rfl, hg, fun a b ha hb => ?_⟩
    rw [cnt_all hp] at hl
    rw [hl, (divmod hb).1, (divmod hb).2]
    have := Nat.mul_le_mul_right N ha
    rw [Nat.succ_mul] at this
    omega

/-- The same for two-dimensional arrays. -/
theorem collect2 {N p q : Nat} (hN : 0 < N) (hp : p ≤ N) (hq : q ≤ N) (A : Mem2 α) (ha : N + 1 ≤ A.rows ∧ N + 1 ≤ A.cols)
    {body : Nat → Nat → Mem2 α × Nat × Nat → C (Mem2 α × Nat × Nat)}
    (h1 : ∀ i j b h k, i ≤ N → j ≤ N → (i = p ∨ j = q) → body i j (b, h, k) = pure (b, h, k))
    (h2 : ∀ i j b h k, i ≤ N → j ≤ N → i ≠ p → j ≠ q → k < N → body i j (b, h, k) = do
      let x ← A.get i j
      let b ← b.put h k x
      pure (if k + 1 = N then (b, h + 1, 0) else (b, h, k + 1)))
    {s : Mem2 α} (hs : N ≤ s.rows ∧ N ≤ s.cols) :
    Ok (forUp 0 (N + 1) (s, 0, 0) fun i s => forUp 0 (N + 1) s fun j s => body i j s) fun r =>
      ∃ s' k w, r = (s', k, w) ∧ (s'.rows = s.rows ∧ s'.cols = s.cols) ∧
        ∀ a b, a < N → b < N → s'.cell a b = A.cell (skip p a) (skip q b) := by
  refine (minor_run (N := N) hN hp hq (σ := Mem2 α) (fun s c => s.cell (c / N) (c % N)) (fun i j => A.cell i j)
    (fun s' => s'.rows = s.rows ∧ s'.cols = s.cols) ?_ ?_ ⟨rfl, rfl⟩).mono ?_
  · intro i j t s1 hi hj hg hpq ht
    rw [h1 i j _ _ _ hi hj hpq, Ok.pure_iff]
    exact ⟨_, rfl, hg, fun _ _ => rfl⟩
  · intro i j t s1 hi hj hg hip hjq ht htN
    have a1 := Nat.mod_lt t hN
    have a2 : t / N < N := Nat.div_lt_of_lt_mul htN
    rw [h2 i j _ _ _ hi hj hip hjq a1]
    simp only [Ok.bind_iff, Mem2.Ok_get, Mem2.Ok_put, Ok.pure_iff]
    refine ⟨⟨by omega, by omega⟩, ⟨by omega, by omega⟩, ?_⟩
    have l1 : ∀ c, c < t → (if c / N = t / N ∧ c % N = t % N then A.cell i j else s1.cell (c / N) (c % N)) = s1.cell (c / N) (c % N) :=
      fun c hc => if_neg fun h => by
        have h3 := Nat.div_add_mod c N
        have h4 := Nat.div_add_mod t N
        rw [h.1, h.2] at h3
        omega
    by_cases hw : t % N + 1 = N
    · rw [if_pos hw, (next_wrap (N := N) (t := t) (by omega) hN).1, (next_wrap (N := N) (t := t) (by omega) hN).2]
      exact ⟨_, rfl, hg, l1, if_pos ⟨rfl, rfl⟩⟩
    · rw [if_neg hw, (next_same (N := N) (t := t) (by omega)).1, (next_same (N := N) (t := t) (by omega)).2]
      exact ⟨_, rfl, hg, l1, if_pos ⟨rfl, rfl⟩⟩
  · rintro r ⟨s', k, w, rfl, hg, hl⟩
    refine ⟨s', k, w, rfl, hg, fun a b ha hb => ?_⟩
    have := hl a b ha hb
    rwa [(divmod hb).1, (divmod hb).2] at this

theorem forUp_one {n : Nat} {t : σ} {f : Nat → σ → C σ} :
    WB.forUp 1 (n + 1) t f = WB.forUp 0 (n + 1) t fun i t => if i = 0 then pure t else f i t := by
  show (List.range' 1 n).foldlM (fun t i => f i t) t = (List.range' 0 (n + 1)).foldlM (fun t i => if i = 0 then pure t else f i t) t
  rw [List.range'_succ, List.foldlM_cons, if_pos rfl]
  show _ = (List.range' 1 n).foldlM (fun t i => if i = 0 then pure t else f i t) t
  suffices ∀ (l : List Nat) (t : σ), (∀ i ∈ l, i ≠ 0) → l.foldlM (fun t i => f i t) t = l.foldlM (fun t i => if i = 0 then pure t else f i t) t from
    this _ t fun i hi => by
      have := List.mem_range'_1.1 hi
      omega
  intro l
  induction l with
  | nil => intros; rfl
  | cons a l ih =>
    intro t h
    rw [List.foldlM_cons, List.foldlM_cons, if_neg (h a (by simp))]
    congr 1
    funext t
    exact ih t fun i hi => h i (by simp [hi])

/-- In a loop that ends, every iteration ends. -/
theorem forUp_each {n lo i : Nat} {t r : σ} {f : Nat → σ → C σ} (h : WB.forUp lo n t f = .ok r) (h1 : lo ≤ i) (h2 : i < n) :
    ∃ t t', f i t = .ok t' := by
  replace h : (List.range' lo (n - lo)).foldlM (fun t i => f i t) t = .ok r := h
  have hi : i ∈ List.range' lo (n - lo) := List.mem_range'_1.2 ⟨h1, by omega⟩
  generalize List.range' lo (n - lo) = l at h hi
  induction l generalizing t with
  | nil => cases hi
  | cons a l ih =>
    rw [List.foldlM_cons] at h
    cases e : f a t with
    | error x => rw [e] at h; cases h
    | ok t' =>
      rw [e] at h
      rcases List.mem_cons.1 hi with rfl | hi
      · exact ⟨t, t', e⟩
      · exact ih h hi

theorem bind_ok {x : C α} {f : α → C β} {b : β} (h : (x >>= f) = .ok b) : ∃ a, x = .ok a ∧ f a = .ok b := by
  cases x with
  | error e => cases h
  | ok a => exact ⟨a, rfl, h⟩

theorem forUp_pure {n : Nat} {t : σ} : (WB.forUp 0 n t fun _ t => pure t : C σ) = pure t := by
  show (List.range' 0 n).foldlM (fun t _ => pure t) t = _
  generalize List.range' 0 n = l
  induction l with
  | nil => rfl
  | cons a l ih => rw [List.foldlM_cons]; exact ih

theorem succAbove_val {n : Nat} (p : Fin (n + 1)) (a : Fin n) : (p.succAbove a).val = skip p a := by
  unfold Fin.succAbove skip
  by_cases h : a.castSucc < p
  · rw [if_pos h, if_pos (by simpa [Fin.lt_def] using h)]; rfl
  · rw [if_neg h, if_neg (by simpa [Fin.lt_def] using h)]; rfl

theorem adjugate_entry {R : Type} [CommRing R] {N : Nat} (A : Matrix (Fin (N + 1)) (Fin (N + 1)) R) (i j : Fin (N + 1)) :
    A.adjugate i j = (-1) ^ (j + i : Nat) * (A.submatrix j.succAbove i.succAbove).det :=
  Matrix.adjugate_fin_succ_eq_det_submatrix A i j

/-! ## Computations that can fail in a known way -/

/-- `x` returns and its result satisfies `Q`, or it ends with one of the faults in `E`. -/
def Out (E : Fault → Prop) (x : C α) (Q : α → Prop) : Prop := (∃ a, x = .ok a ∧ Q a) ∨ ∃ e, E e ∧ x = .error e

namespace Out

theorem of_Ok {x : C α} {Q : α → Prop} (h : Ok x Q) : Out E x Q := .inl h

theorem mono {x : C α} {Q Q' : α → Prop} (h : Out E x Q) (hq : ∀ a, Q a → Q' a) : Out E x Q' := by
  rcases h with ⟨a, e, h⟩ | h
  · exact .inl ⟨a, e, hq a h⟩
  · exact .inr h

theorem bind {x : C α} {f : α → C β} {P : α → Prop} {Q : β → Prop} (h : Out E x P) (hf : ∀ a, P a → Out E (f a) Q) : Out E (x >>= f) Q := by
  rcases h with ⟨a, e, h⟩ | ⟨e, h, he⟩
  · rw [e]
    exact hf a h
  · rw [he]
    exact .inr ⟨e, h, rfl⟩

theorem pure {a : α} {Q : α → Prop} (h : Q a) : Out E (Pure.pure a) Q := .inl ⟨a, rfl, h⟩

theorem of_ok {x : C α} {Q : α → Prop} (h : Out E x Q) {a : α} (e : x = .ok a) : Q a := by
  rcases h with ⟨a', e', h⟩ | ⟨_, _, e'⟩
  · rw [e] at e'
    cases e'
    exact h
  · rw [e] at e'; cases e'

theorem foldlM {f : Nat → σ → C σ} (P : Nat → σ → Prop) : ∀ (len lo : Nat) (t : σ), P lo t →
    (∀ i t, lo ≤ i → i < lo + len → P i t → Out E (f i t) (P (i + 1))) →
    Out E ((List.range' lo len).foldlM (fun t i => f i t) t) (P (lo + len))
  | 0, lo, t, h0, _ => by rw [List.range'_zero, List.foldlM_nil]; exact Out.pure h0
  | len + 1, lo, t, h0, hs => by
    rw [List.range'_succ, List.foldlM_cons]
    refine Out.bind (hs lo t (Nat.le_refl _) (by omega) h0) fun t' h' => ?_
    have := foldlM P len (lo + 1) t' h' (fun i t h1 h2 hp => hs i t (by omega) (by omega) hp)
    rwa [show lo + (len + 1) = lo + 1 + len by omega]

theorem forUp {hi : Nat} {t : σ} {f : Nat → σ → C σ} {Q : σ → Prop} (P : Nat → σ → Prop) (h0 : P 0 t)
    (hs : ∀ i t, i < hi → P i t → Out E (f i t) (P (i + 1))) (hq : ∀ t, P hi t → Q t) : Out E (WB.forUp 0 hi t f) Q := by
  have := foldlM (f := f) P hi 0 t h0 (fun i t _ h2 hp => hs i t (by omega) hp)
  rw [Nat.zero_add] at this
  exact this.mono hq

theorem forUpFrom {lo hi : Nat} {t : σ} {f : Nat → σ → C σ} {Q : σ → Prop} (P : Nat → σ → Prop) (hle : lo ≤ hi) (h0 : P lo t)
    (hs : ∀ i t, lo ≤ i → i < hi → P i t → Out E (f i t) (P (i + 1))) (hq : ∀ t, P hi t → Q t) : Out E (WB.forUp lo hi t f) Q := by
  have := foldlM (f := f) P (hi - lo) lo t h0 (fun i t h1 h2 hp => hs i t h1 (by omega) hp)
  rw [show lo + (hi - lo) = hi by omega] at this
  exact this.mono hq

end Out

theorem Mem2.get_eq {a : Mem2 α} {i j : Nat} (h : i < a.rows ∧ j < a.cols) : a.get i j = .ok (a.cell i j) := if_pos h

/-- A loop that computes the elements of one row. -/
theorem row_run {m i : Nat} {A : Mem2 α} {f : Nat → Mem2 α → C (Mem2 α)} (F : Nat → α) (hi : i < A.rows) (hm : m ≤ A.cols)
    (h : ∀ k B, k < m → B.rows = A.rows → B.cols = A.cols → (∀ a b, (a ≠ i ∨ k ≤ b) → B.cell a b = A.cell a b) →
      f k B = B.put i k (F k)) :
    Ok (WB.forUp 0 m A f) fun r => r = ⟨A.rows, A.cols, fun a b => if a = i ∧ b < m then F b else A.cell a b⟩ := by
  refine Ok.forUp (P := fun k r => r = ⟨A.rows, A.cols, fun a b => if a = i ∧ b < k then F b else A.cell a b⟩) (Nat.zero_le _) ?_ ?_
    fun _ h => h
  · simp
  · rintro k r _ hk rfl
    have hf : ∀ a b, (a ≠ i ∨ k ≤ b) → (if a = i ∧ b < k then F b else A.cell a b) = A.cell a b := fun a b hab => if_neg (by omega)
    rw [h k ⟨A.rows, A.cols, fun a b => if a = i ∧ b < k then F b else A.cell a b⟩ hk rfl rfl hf, Mem2.Ok_put]
    refine ⟨⟨hi, by simp only; omega⟩, ?_⟩
    simp only [Mem2.mk.injEq, true_and]
    funext a b
    by_cases h1 : a = i ∧ b = k
    · rw [if_pos h1, if_pos (by omega), h1.2]
    · rw [if_neg h1]
      by_cases h2 : a = i ∧ b < k
      · rw [if_pos h2, if_pos (by omega)]
      · rw [if_neg h2, if_neg (by omega)]

/-- A loop that computes the elements of one row from column `lo` on. -/
theorem row_run_from {lo m i : Nat} {A : Mem2 α} {f : Nat → Mem2 α → C (Mem2 α)} (F : Nat → α) (hi : i < A.rows) (hl : lo ≤ m)
    (hm : m ≤ A.cols)
    (h : ∀ k B, lo ≤ k → k < m → B.rows = A.rows → B.cols = A.cols → (∀ a b, (a ≠ i ∨ k ≤ b) → B.cell a b = A.cell a b) →
      f k B = B.put i k (F k)) :
    Ok (WB.forUp lo m A f) fun r => r = ⟨A.rows, A.cols, fun a b => if a = i ∧ lo ≤ b ∧ b < m then F b else A.cell a b⟩ := by
  refine Ok.forUp (P := fun k r => r = ⟨A.rows, A.cols, fun a b => if a = i ∧ lo ≤ b ∧ b < k then F b else A.cell a b⟩) hl ?_ ?_
    fun _ h => h
  · obtain ⟨r, c, g⟩ := A
    simp only [Mem2.mk.injEq, true_and]
    funext a b
    rw [if_neg (by omega)]
  · rintro k r hlk hk rfl
    have hf : ∀ a b, (a ≠ i ∨ k ≤ b) → (if a = i ∧ lo ≤ b ∧ b < k then F b else A.cell a b) = A.cell a b := fun a b hab => if_neg (by omega)
    rw [h k ⟨A.rows, A.cols, fun a b => if a = i ∧ lo ≤ b ∧ b < k then F b else A.cell a b⟩ hlk hk rfl rfl hf, Mem2.Ok_put]
    refine ⟨⟨hi, by simp only; omega⟩, ?_⟩
    simp only [Mem2.mk.injEq, true_and]
    funext a b
    by_cases h1 : a = i ∧ b = k
    · rw [if_pos h1, if_pos (by omega), h1.2]
    · rw [if_neg h1]
      by_cases h2 : a = i ∧ lo ≤ b ∧ b < k
      · rw [if_pos h2, if_pos (by omega)]
      · rw [if_neg h2, if_neg (by omega)]

/-- A loop that computes all elements of a block. -/
theorem block_run {m : Nat} {A : Mem α} {f : Nat → Mem α → C (Mem α)} (F : Nat → α) (hm : m ≤ A.size)
    (h : ∀ k B, k < m → B.size = A.size → (∀ b, k ≤ b → B.cell b = A.cell b) → f k B = B.put k (F k)) :
    Ok (WB.forUp 0 m A f) fun r => r.size = A.size ∧ ∀ b, b < m → r.cell b = F b := by
  refine (Ok.forUp (σ := Mem α) (P := fun k r => r.size = A.size ∧ (∀ b, b < k → r.cell b = F b) ∧ ∀ b, k ≤ b → r.cell b = A.cell b)
    (Q := fun r => r.size = A.size ∧ ∀ b, b < m → r.cell b = F b) (Nat.zero_le _)
    ⟨rfl, fun b h => absurd h (by omega), fun b _ => rfl⟩ ?_ fun r h => ⟨h.1, h.2.1⟩)
  rintro k r _ hk ⟨h1, h2, h3⟩
  rw [h k r hk h1 h3, Mem.Ok_put]
  refine ⟨by omega, h1, fun b hb => ?_, fun b hb => ?_⟩
  · simp only
    by_cases hbk : b = k
    · rw [if_pos hbk, hbk]
    · rw [if_neg hbk, h2 b (by omega)]
  · simp only
    rw [if_neg (by omega), h3 b (by omega)]

end WB.cmp
