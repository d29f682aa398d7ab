import Verif.Model.Basic

/-!
# Reasoning rules for the execution model (helper lemmas)
-/
set_option linter.unusedSectionVars false

namespace WB

/-- `Ok x Q`: the computation `x` runs without fault and its result satisfies `Q`. -/
def Ok {α : Type} (x : C α) (Q : α → Prop) : Prop := ∃ a, x = .ok a ∧ Q a

namespace Ok
variable {α β : Type}

@[simp] theorem pure_iff (a : α) (Q : α → Prop) : Ok (pure a) Q ↔ Q a := by
  constructor
  · rintro ⟨b, h, hq⟩
    cases h; exact hq
  · intro h; exact ⟨a, rfl, h⟩

@[simp] theorem ok_iff (a : α) (Q : α → Prop) : Ok (.ok a) Q ↔ Q a := pure_iff a Q

@[simp] theorem error_iff (e : Fault) (Q : α → Prop) : Ok (.error e) Q ↔ False := by
  constructor
  · rintro ⟨b, h, _⟩; cases h
  · exact False.elim

@[simp] theorem bind_iff (x : C α) (f : α → C β) (Q : β → Prop) :
    Ok (x >>= f) Q ↔ Ok x (fun a => Ok (f a) Q) := by
  cases x with
  | ok a =>
    rw [ok_iff]; rfl
  | error e =>
    rw [error_iff]
    exact error_iff e Q

@[simp] theorem ite_iff (c : Prop) [Decidable c] (x y : C α) (Q : α → Prop) :
    Ok (if c then x else y) Q ↔ (c → Ok x Q) ∧ (¬ c → Ok y Q) := by
  by_cases h : c <;> simp [h]

theorem mono {x : C α} {Q R : α → Prop} (h : Ok x Q) (hqr : ∀ a, Q a → R a) : Ok x R := by
  obtain ⟨a, ha, hq⟩ := h
  exact ⟨a, ha, hqr a hq⟩

theorem bind {x : C α} {f : α → C β} {P : α → Prop} {Q : β → Prop}
    (h : Ok x P) (hf : ∀ a, P a → Ok (f a) Q) : Ok (x >>= f) Q :=
  (bind_iff x f Q).2 (h.mono hf)

theorem eq {x : C α} {a : α} : Ok x (fun b => b = a) ↔ x = .ok a := by
  constructor
  · rintro ⟨b, h, rfl⟩; exact h
  · intro h; exact ⟨a, h, rfl⟩

theorem and {x : C α} {Q R : α → Prop} (h : Ok x Q) (h' : Ok x R) :
    Ok x (fun a => Q a ∧ R a) := by
  obtain ⟨a, ha, hq⟩ := h
  obtain ⟨b, hb, hr⟩ := h'
  rw [ha] at hb
  cases hb
  exact ⟨a, ha, hq, hr⟩

end Ok

@[simp] theorem Ok_rd {α : Type} {n : Nat} (a : Vector α n) (i : Nat) (Q : α → Prop) :
    Ok (rd a i) Q ↔ ∃ h : i < n, Q a[i] := by
  unfold rd
  by_cases h : i < n <;> simp [h]

@[simp] theorem Ok_wr {α : Type} {n : Nat} (a : Vector α n) (i : Nat) (x : α)
    (Q : Vector α n → Prop) :
    Ok (wr a i x) Q ↔ ∃ h : i < n, Q (a.set i x) := by
  unfold wr
  by_cases h : i < n <;> simp [h]

theorem rd_ok {α : Type} {n : Nat} (a : Vector α n) (i : Nat) (h : i < n) :
    rd a i = .ok a[i] := by simp [rd, h]

theorem wr_ok {α : Type} {n : Nat} (a : Vector α n) (i : Nat) (x : α) (h : i < n) :
    wr a i x = .ok (a.set i x) := by simp [wr, h]

@[simp] theorem C_pure_bind {α β : Type} (a : α) (f : α → C β) :
    (Except.ok a >>= f : C β) = f a := rfl

@[simp] theorem C_error_bind {α β : Type} (e : Fault) (f : α → C β) :
    (Except.error e >>= f : C β) = .error e := rfl

theorem C_pure_eq {α : Type} (a : α) : (pure a : C α) = .ok a := rfl

/-! ## Loops -/

theorem foldlM_range'_inv {σ : Type} {f : Nat → σ → C σ} (P : Nat → σ → Prop) :
    ∀ (len lo : Nat) (s : σ), P lo s →
    (∀ i s, lo ≤ i → i < lo + len → P i s → Ok (f i s) (P (i + 1))) →
    Ok ((List.range' lo len).foldlM (fun s i => f i s) s) (P (lo + len)) := by
  intro len
  induction len with
  | zero => intro lo s h0 _; simpa using h0
  | succ len ih =>
    intro lo s h0 hs
    simp only [List.range'_succ, List.foldlM_cons]
    refine Ok.bind (hs lo s (Nat.le_refl _) (by omega) h0) ?_
    intro s' h'
    have := ih (lo + 1) s' h' (fun i s h1 h2 hp => hs i s (by omega) (by omega) hp)
    rwa [show lo + (len + 1) = lo + 1 + len by omega]

/-- Invariant rule for `for(i = lo; i < hi; i++)`. -/
theorem Ok.forUp {σ : Type} {lo hi : Nat} {s : σ} {f : Nat → σ → C σ} {Q : σ → Prop}
    (P : Nat → σ → Prop) (hle : lo ≤ hi) (h0 : P lo s)
    (hs : ∀ i s, lo ≤ i → i < hi → P i s → Ok (f i s) (P (i + 1)))
    (hq : ∀ s, P hi s → Q s) : Ok (WB.forUp lo hi s f) Q := by
  have := foldlM_range'_inv P (hi - lo) lo s h0 (fun i s h1 h2 hp => hs i s h1 (by omega) hp)
  rw [show lo + (hi - lo) = hi by omega] at this
  exact this.mono hq

theorem foldlM_range'_reverse_inv {σ : Type} {f : Nat → σ → C σ} (P : Nat → σ → Prop) :
    ∀ (len lo : Nat) (s : σ), P (lo + len) s →
    (∀ i s, lo ≤ i → i < lo + len → P (i + 1) s → Ok (f i s) (P i)) →
    Ok ((List.range' lo len).reverse.foldlM (fun s i => f i s) s) (P lo) := by
  intro len
  induction len with
  | zero => intro lo s h0 _; simpa using h0
  | succ len ih =>
    intro lo s h0 hs
    rw [List.range'_concat]
    simp only [Nat.one_mul, List.reverse_append, List.reverse_cons, List.reverse_nil,
      List.nil_append, List.singleton_append, List.foldlM_cons]
    refine Ok.bind (hs (lo + len) s (by omega) (by omega) h0) ?_
    intro s' h'
    exact ih lo s' h' (fun i s h1 h2 hp => hs i s h1 (by omega) hp)

/-- Invariant rule for `for(i = hi - 1; i >= lo; i--)`. -/
theorem Ok.forDown {σ : Type} {lo hi : Nat} {s : σ} {f : Nat → σ → C σ} {Q : σ → Prop}
    (P : Nat → σ → Prop) (hle : lo ≤ hi) (h0 : P hi s)
    (hs : ∀ i s, lo ≤ i → i < hi → P (i + 1) s → Ok (f i s) (P i))
    (hq : ∀ s, P lo s → Q s) : Ok (WB.forDown hi lo s f) Q := by
  have := foldlM_range'_reverse_inv P (hi - lo) lo s
    (by rw [show lo + (hi - lo) = hi by omega]; exact h0)
    (fun i s h1 h2 hp => hs i s h1 (by omega) hp)
  exact this.mono hq

/-- A condition on the outcome of an iteration: `N` if it continues, `R` if it stops. -/
def Step.holds {ρ σ : Type} (N : σ → Prop) (R : ρ → Prop) : Step ρ σ → Prop
  | .next s => N s
  | .stop r => R r

@[simp] theorem Step.holds_next {ρ σ : Type} (N : σ → Prop) (R : ρ → Prop) (s : σ) :
    Step.holds N R (.next s) = N s := rfl

@[simp] theorem Step.holds_stop {ρ σ : Type} (N : σ → Prop) (R : ρ → Prop) (r : ρ) :
    Step.holds N R (.stop r) = R r := rfl

theorem iterStop_inv {ρ σ : Type} {f : Nat → σ → C (Step ρ σ)} (P : Nat → σ → Prop)
    (R : ρ → Prop) :
    ∀ (len lo : Nat) (s : σ), P lo s →
    (∀ i s, lo ≤ i → i < lo + len → P i s →
      Ok (f i s) (Step.holds (P (i + 1)) R)) →
    Ok (iterStop f (List.range' lo len) s)
      (Step.holds (P (lo + len)) R) := by
  intro len
  induction len with
  | zero => intro lo s h0 _; simpa [iterStop] using h0
  | succ len ih =>
    intro lo s h0 hs
    simp only [List.range'_succ, iterStop]
    refine Ok.bind (hs lo s (Nat.le_refl _) (by omega) h0) ?_
    intro st h'
    match st, h' with
    | .next s', h' =>
      have := ih (lo + 1) s' h' (fun i s h1 h2 hp => hs i s (by omega) (by omega) hp)
      rwa [show lo + (len + 1) = lo + 1 + len by omega]
    | .stop r, h' => exact (Ok.pure_iff _ _).2 h'

/-- Invariant rule for loops with early exit. -/
theorem Ok.forRet {ρ σ : Type} {lo hi : Nat} {s : σ} {f : Nat → σ → C (Step ρ σ)}
    {Q : Step ρ σ → Prop} (P : Nat → σ → Prop) (R : ρ → Prop) (hle : lo ≤ hi) (h0 : P lo s)
    (hs : ∀ i s, lo ≤ i → i < hi → P i s →
      Ok (f i s) (Step.holds (P (i + 1)) R))
    (hn : ∀ s, P hi s → Q (.next s)) (hr : ∀ r, R r → Q (.stop r)) :
    Ok (WB.forRet lo hi s f) Q := by
  have := iterStop_inv P R (hi - lo) lo s h0 (fun i s h1 h2 hp => hs i s h1 (by omega) hp)
  rw [show lo + (hi - lo) = hi by omega] at this
  refine this.mono ?_
  intro st h
  match st, h with
  | .next s, h => exact hn s h
  | .stop r, h => exact hr r h

/-- Invariant rule for loops with `break`. -/
theorem Ok.forBrk {σ : Type} {lo hi : Nat} {s : σ} {f : Nat → σ → C (Step σ σ)}
    {Q : σ → Prop} (P : Nat → σ → Prop) (R : σ → Prop) (hle : lo ≤ hi) (h0 : P lo s)
    (hs : ∀ i s, lo ≤ i → i < hi → P i s →
      Ok (f i s) (Step.holds (P (i + 1)) R))
    (hn : ∀ s, P hi s → Q s) (hr : ∀ r, R r → Q r) :
    Ok (WB.forBrk lo hi s f) Q := by
  unfold WB.forBrk
  refine (Ok.bind_iff _ _ _).2 (Ok.forRet P R hle h0 hs ?_ ?_)
  · intro s h; simpa using hn s h
  · intro s h; simpa using hr s h

/-! ## Splitting and congruence of loops -/

section Gen
variable {m : Type → Type} [Monad m] [LawfulMonad m] {σ ρ : Type}

theorem forUp_split (lo mid hi : Nat) (h1 : lo ≤ mid) (h2 : mid ≤ hi) (s : σ)
    (f : Nat → σ → m σ) :
    forUp lo hi s f = (do let s ← forUp lo mid s f; forUp mid hi s f) := by
  unfold forUp
  rw [show hi - lo = (mid - lo) + (hi - mid) by omega, ← List.range'_append,
    List.foldlM_append]
  rw [show lo + 1 * (mid - lo) = mid by omega]

theorem forDown_split (lo mid hi : Nat) (h1 : lo ≤ mid) (h2 : mid ≤ hi) (s : σ)
    (f : Nat → σ → m σ) :
    forDown hi lo s f = (do let s ← forDown hi mid s f; forDown mid lo s f) := by
  unfold forDown
  rw [show hi - lo = (mid - lo) + (hi - mid) by omega, ← List.range'_append,
    List.reverse_append, List.foldlM_append]
  rw [show lo + 1 * (mid - lo) = mid by omega]

omit [LawfulMonad m] in
theorem foldlM_congr_mem (l : List Nat) (s : σ) (f g : σ → Nat → m σ)
    (h : ∀ i ∈ l, ∀ s, f s i = g s i) : l.foldlM f s = l.foldlM g s := by
  induction l generalizing s with
  | nil => rfl
  | cons a l ih =>
    simp only [List.foldlM_cons]
    rw [h a (by simp) s]
    exact bind_congr fun s' => ih s' (fun i hi s => h i (by simp [hi]) s)

theorem forUp_congr {lo hi : Nat} (s : σ) {f g : Nat → σ → m σ}
    (h : ∀ i s, lo ≤ i → i < hi → f i s = g i s) : forUp lo hi s f = forUp lo hi s g := by
  unfold forUp
  apply foldlM_congr_mem
  intro i hi' s
  rw [List.mem_range'_1] at hi'
  exact h i s (by omega) (by omega)

theorem forDown_congr {lo hi : Nat} (s : σ) {f g : Nat → σ → m σ}
    (h : ∀ i s, lo ≤ i → i < hi → f i s = g i s) :
    forDown hi lo s f = forDown hi lo s g := by
  unfold forDown
  apply foldlM_congr_mem
  intro i hi' s
  rw [List.mem_reverse, List.mem_range'_1] at hi'
  exact h i s (by omega) (by omega)

theorem iterStop_append (f : Nat → σ → m (Step ρ σ)) (l l' : List Nat) (s : σ) :
    iterStop f (l ++ l') s = (do
      match ← iterStop f l s with
      | .next s => iterStop f l' s
      | .stop r => pure (.stop r)) := by
  induction l generalizing s with
  | nil => simp [iterStop]
  | cons a l ih =>
    simp only [List.cons_append, iterStop, bind_assoc]
    refine bind_congr fun st => ?_
    cases st with
    | next s => exact ih s
    | stop r => simp

theorem forRet_split (lo mid hi : Nat) (h1 : lo ≤ mid) (h2 : mid ≤ hi) (s : σ)
    (f : Nat → σ → m (Step ρ σ)) :
    forRet lo hi s f = (do
      match ← forRet lo mid s f with
      | .next s => forRet mid hi s f
      | .stop r => pure (.stop r)) := by
  unfold forRet
  rw [show hi - lo = (mid - lo) + (hi - mid) by omega, ← List.range'_append,
    iterStop_append]
  rw [show lo + 1 * (mid - lo) = mid by omega]

omit [LawfulMonad m] in
theorem iterStop_congr (l : List Nat) (s : σ) (f g : Nat → σ → m (Step ρ σ))
    (h : ∀ i ∈ l, ∀ s, f i s = g i s) : iterStop f l s = iterStop g l s := by
  induction l generalizing s with
  | nil => rfl
  | cons a l ih =>
    simp only [iterStop]
    rw [h a (by simp) s]
    refine bind_congr fun st => ?_
    cases st with
    | next s => exact ih s (fun i hi s => h i (by simp [hi]) s)
    | stop r => rfl

theorem forRet_congr {lo hi : Nat} (s : σ) {f g : Nat → σ → m (Step ρ σ)}
    (h : ∀ i s, lo ≤ i → i < hi → f i s = g i s) : forRet lo hi s f = forRet lo hi s g := by
  unfold forRet
  apply iterStop_congr
  intro i hi' s
  rw [List.mem_range'_1] at hi'
  exact h i s (by omega) (by omega)

end Gen

/-! ## Computations with global state -/

/-- `OkM x w Q`: running `x` from world `w` does not fault; result and final world satisfy
`Q`. -/
def OkM {α : Type} (x : CM α) (w : World) (Q : α → World → Prop) : Prop :=
  Ok (x w) (fun r => Q r.1 r.2)

namespace OkM
variable {α β : Type}

@[simp] theorem pure_iff (a : α) (w : World) (Q : α → World → Prop) :
    OkM (pure a) w Q ↔ Q a w := Ok.pure_iff (a, w) _

@[simp] theorem bind_iff (x : CM α) (f : α → CM β) (w : World) (Q : β → World → Prop) :
    OkM (x >>= f) w Q ↔ OkM x w (fun a w' => OkM (f a) w' Q) := by
  unfold OkM
  exact Ok.bind_iff (x w) (fun r => f r.1 r.2) _

@[simp] theorem liftC_iff (x : C α) (w : World) (Q : α → World → Prop) :
    OkM (liftC x) w Q ↔ Ok x (fun a => Q a w) := by
  unfold OkM liftC
  cases x <;> simp

@[simp] theorem ite_iff (c : Prop) [Decidable c] (x y : CM α) (w : World)
    (Q : α → World → Prop) :
    OkM (if c then x else y) w Q ↔ (c → OkM x w Q) ∧ (¬ c → OkM y w Q) := by
  by_cases h : c <;> simp [h]

theorem mono {x : CM α} {w : World} {Q R : α → World → Prop} (h : OkM x w Q)
    (hqr : ∀ a w', Q a w' → R a w') : OkM x w R :=
  Ok.mono h fun r => hqr r.1 r.2

theorem bind {x : CM α} {f : α → CM β} {w : World} {P : α → World → Prop}
    {Q : β → World → Prop} (h : OkM x w P) (hf : ∀ a w', P a w' → OkM (f a) w' Q) :
    OkM (x >>= f) w Q :=
  (bind_iff x f w Q).2 (h.mono hf)

@[simp] theorem modify_iff (f : World → World) (w : World) (Q : Unit → World → Prop) :
    OkM (modify f) w Q ↔ Q () (f w) := Ok.pure_iff ((), f w) _

@[simp] theorem modifyGet_iff (f : World → α × World) (w : World) (Q : α → World → Prop) :
    OkM (modifyGet f) w Q ↔ Q (f w).1 (f w).2 := Ok.pure_iff (f w) _

end OkM

theorem foldlM_range'_invM {σ : Type} {f : Nat → σ → CM σ} (P : Nat → σ → World → Prop) :
    ∀ (len lo : Nat) (s : σ) (w : World), P lo s w →
    (∀ i s w, lo ≤ i → i < lo + len → P i s w → OkM (f i s) w (P (i + 1))) →
    OkM ((List.range' lo len).foldlM (fun s i => f i s) s) w (P (lo + len)) := by
  intro len
  induction len with
  | zero => intro lo s w h0 _; simpa using h0
  | succ len ih =>
    intro lo s w h0 hs
    simp only [List.range'_succ, List.foldlM_cons]
    refine OkM.bind (hs lo s w (Nat.le_refl _) (by omega) h0) ?_
    intro s' w' h'
    have := ih (lo + 1) s' w' h' (fun i s w h1 h2 hp => hs i s w (by omega) (by omega) hp)
    rwa [show lo + (len + 1) = lo + 1 + len by omega]

/-- Invariant rule for `for` loops that use the global variables. -/
theorem OkM.forUp {σ : Type} {lo hi : Nat} {s : σ} {w : World} {f : Nat → σ → CM σ}
    {Q : σ → World → Prop}
    (P : Nat → σ → World → Prop) (hle : lo ≤ hi) (h0 : P lo s w)
    (hs : ∀ i s w, lo ≤ i → i < hi → P i s w → OkM (f i s) w (P (i + 1)))
    (hq : ∀ s w, P hi s w → Q s w) : OkM (WB.forUp lo hi s f) w Q := by
  have := foldlM_range'_invM P (hi - lo) lo s w h0
    (fun i s w h1 h2 hp => hs i s w h1 (by omega) hp)
  rw [show lo + (hi - lo) = hi by omega] at this
  exact this.mono hq

theorem OkM_cus_random (w : World) (Q : BitVec 32 → World → Prop)
    (h : ∀ r, Q r { w with m_index := w.m_index + 1#32 }) : OkM cus_random w Q := by
  unfold cus_random
  simp only [OkM.modifyGet_iff]
  exact h _

end WB
