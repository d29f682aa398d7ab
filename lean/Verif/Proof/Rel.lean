import Verif.Proof.RandRun
import Verif.Proof.ElimAll

/-!
# Two runs side by side (helper lemmas)
-/
namespace WB

/-- Both runs give results related by `R`, or both have the same fault. -/
def RelC {α β : Type} (R : α → β → Prop) : C α → C β → Prop
  | .ok a, .ok b => R a b
  | .error e, .error e' => e = e'
  | _, _ => False

/-- Same state of the random number generator. -/
def GenEq (w w' : World) : Prop :=
  w.m_index = w'.m_index ∧ w.m_intermediateOffset = w'.m_intermediateOffset

/-- Started from the same generator state, both runs give related results and end in the same
generator state. -/
def RelM {α β : Type} (R : α → β → Prop) (x : CM α) (y : CM β) : Prop :=
  ∀ w w', GenEq w w' → RelC (fun p q => R p.1 q.1 ∧ GenEq p.2 q.2) (x w) (y w')

namespace RelC
variable {α β γ δ : Type}

theorem refl (x : C α) : RelC Eq x x := by cases x <;> exact rfl

theorem ok {R : α → β → Prop} {a : α} {b : β} (h : R a b) : RelC R (.ok a) (.ok b) := h

theorem pure {R : α → β → Prop} {a : α} {b : β} (h : R a b) :
    RelC R (Pure.pure a : C α) (Pure.pure b) := h

theorem mono {R S : α → β → Prop} {x : C α} {y : C β} (h : RelC R x y)
    (hRS : ∀ a b, R a b → S a b) : RelC S x y := by
  cases x <;> cases y <;> first | exact h | exact hRS _ _ h

theorem bind {R : α → β → Prop} {S : γ → δ → Prop} {x : C α} {y : C β} {f : α → C γ}
    {g : β → C δ} (h : RelC R x y) (hf : ∀ a b, R a b → RelC S (f a) (g b)) :
    RelC S (x >>= f) (y >>= g) := by
  cases x <;> cases y <;> first | exact h | exact hf _ _ h | exact h.elim

/-- The two sides start with the same computation. -/
theorem bind_same {S : γ → δ → Prop} {x : C α} {f : α → C γ} {g : α → C δ}
    (hf : ∀ a, RelC S (f a) (g a)) : RelC S (x >>= f) (x >>= g) :=
  bind (refl x) (fun a b h => by subst h; exact hf a)

theorem ite {S : γ → δ → Prop} {c : Prop} [Decidable c] {x y : C γ} {x' y' : C δ}
    (h1 : RelC S x x') (h2 : RelC S y y') :
    RelC S (if c then x else y) (if c then x' else y') := by
  by_cases h : c <;> simp only [h, if_true, if_false] <;> assumption

theorem foldlM {σ τ : Type} {R : σ → τ → Prop} {f : σ → Nat → C σ} {g : τ → Nat → C τ}
    (l : List Nat) (h : ∀ i ∈ l, ∀ s s', R s s' → RelC R (f s i) (g s' i)) :
    ∀ s s', R s s' → RelC R (l.foldlM f s) (l.foldlM g s') := by
  induction l with
  | nil => intro s s' h0; exact h0
  | cons a l ih =>
    intro s s' h0
    simp only [List.foldlM_cons]
    exact bind (h a (by simp) s s' h0) (ih fun i hi => h i (by simp [hi]))

theorem forUp {σ τ : Type} {R : σ → τ → Prop} {lo hi : Nat} {f : Nat → σ → C σ}
    {g : Nat → τ → C τ} {s : σ} {s' : τ} (h0 : R s s')
    (h : ∀ i, lo ≤ i → i < hi → ∀ s s', R s s' → RelC R (f i s) (g i s')) :
    RelC R (forUp lo hi s f) (forUp lo hi s' g) := by
  unfold WB.forUp
  refine foldlM _ (fun i hi' => ?_) s s' h0
  rw [List.mem_range'_1] at hi'
  exact h i (by omega) (by omega)

theorem forDown {σ τ : Type} {R : σ → τ → Prop} {lo hi : Nat} {f : Nat → σ → C σ}
    {g : Nat → τ → C τ} {s : σ} {s' : τ} (h0 : R s s')
    (h : ∀ i, lo ≤ i → i < hi → ∀ s s', R s s' → RelC R (f i s) (g i s')) :
    RelC R (forDown hi lo s f) (forDown hi lo s' g) := by
  unfold WB.forDown
  refine foldlM _ (fun i hi' => ?_) s s' h0
  rw [List.mem_reverse, List.mem_range'_1] at hi'
  exact h i (by omega) (by omega)

/-- Related outcomes of an iteration. -/
def stepRel {σ τ : Type} (R : σ → τ → Prop) : Step σ σ → Step τ τ → Prop
  | .next s, .next s' => R s s'
  | .stop s, .stop s' => R s s'
  | _, _ => False

theorem iterStop {σ τ : Type} {R : σ → τ → Prop} {f : Nat → σ → C (Step σ σ)}
    {g : Nat → τ → C (Step τ τ)} (l : List Nat)
    (h : ∀ i s s', R s s' → RelC (stepRel R) (f i s) (g i s')) :
    ∀ s s', R s s' → RelC (stepRel R) (iterStop f l s) (iterStop g l s') := by
  induction l with
  | nil => intro s s' h0; exact h0
  | cons a l ih =>
    intro s s' h0
    simp only [WB.iterStop]
    refine bind (h a s s' h0) ?_
    intro st st' hst
    cases st <;> cases st' <;> first | exact ih _ _ hst | exact hst.elim | exact hst

theorem forBrk {σ τ : Type} {R : σ → τ → Prop} {lo hi : Nat} {f : Nat → σ → C (Step σ σ)}
    {g : Nat → τ → C (Step τ τ)} {s : σ} {s' : τ} (h0 : R s s')
    (h : ∀ i s s', R s s' → RelC (stepRel R) (f i s) (g i s')) :
    RelC R (forBrk lo hi s f) (forBrk lo hi s' g) := by
  unfold WB.forBrk WB.forRet
  refine bind (iterStop _ h s s' h0) ?_
  intro st st' hst
  cases st <;> cases st' <;> first | exact hst | exact hst.elim

end RelC

namespace RelM
variable {α β γ δ : Type}

theorem pure {R : α → β → Prop} {a : α} {b : β} (h : R a b) :
    RelM R (Pure.pure a : CM α) (Pure.pure b) := fun _ _ hw => ⟨h, hw⟩

theorem liftC {R : α → β → Prop} {x : C α} {y : C β} (h : RelC R x y) :
    RelM R (liftC x) (WB.liftC y) := by
  intro w w' hw
  cases x <;> cases y <;> first | exact ⟨h, hw⟩ | exact h

theorem bind {R : α → β → Prop} {S : γ → δ → Prop} {x : CM α} {y : CM β} {f : α → CM γ}
    {g : β → CM δ} (h : RelM R x y) (hf : ∀ a b, R a b → RelM S (f a) (g b)) :
    RelM S (x >>= f) (y >>= g) := by
  intro w w' hw
  show RelC _ (x w >>= fun r => f r.1 r.2) (y w' >>= fun r => g r.1 r.2)
  exact RelC.bind (h w w' hw) (fun a b hab => hf _ _ hab.1 _ _ hab.2)

theorem bind_lift {S : γ → δ → Prop} {x : C α} {f : α → CM γ} {g : α → CM δ}
    (hf : ∀ a, RelM S (f a) (g a)) : RelM S (WB.liftC x >>= f) (WB.liftC x >>= g) :=
  bind (liftC (RelC.refl x)) (fun a b h => by subst h; exact hf a)

theorem random {S : γ → δ → Prop} {f : BitVec 32 → CM γ} {g : BitVec 32 → CM δ}
    (hf : ∀ a, RelM S (f a) (g a)) : RelM S (cus_random >>= f) (cus_random >>= g) := by
  refine bind (R := Eq) ?_ (fun a b h => by subst h; exact hf a)
  intro w w' hw
  rw [cus_random_run, cus_random_run]
  refine ⟨?_, ?_, ?_⟩
  · show WB.draw _ _ = WB.draw _ _
    rw [hw.1, hw.2]
  · show w.m_index + 1#32 = w'.m_index + 1#32
    rw [hw.1]
  · exact hw.2

theorem ite {S : γ → δ → Prop} {c : Prop} [Decidable c] {x y : CM γ} {x' y' : CM δ}
    (h1 : RelM S x x') (h2 : RelM S y y') :
    RelM S (if c then x else y) (if c then x' else y') := by
  by_cases h : c <;> simp only [h, if_true, if_false] <;> assumption

theorem foldlM {σ τ : Type} {R : σ → τ → Prop} {f : σ → Nat → CM σ} {g : τ → Nat → CM τ}
    (l : List Nat) (h : ∀ i ∈ l, ∀ s s', R s s' → RelM R (f s i) (g s' i)) :
    ∀ s s', R s s' → RelM R (l.foldlM f s) (l.foldlM g s') := by
  induction l with
  | nil => intro s s' h0; exact pure h0
  | cons a l ih =>
    intro s s' h0
    simp only [List.foldlM_cons]
    exact bind (h a (by simp) s s' h0) (ih fun i hi => h i (by simp [hi]))

theorem forUp {σ τ : Type} {R : σ → τ → Prop} {lo hi : Nat} {f : Nat → σ → CM σ}
    {g : Nat → τ → CM τ} {s : σ} {s' : τ} (h0 : R s s')
    (h : ∀ i, lo ≤ i → i < hi → ∀ s s', R s s' → RelM R (f i s) (g i s')) :
    RelM R (forUp lo hi s f) (forUp lo hi s' g) := by
  unfold WB.forUp
  refine foldlM _ (fun i hi' => ?_) s s' h0
  rw [List.mem_range'_1] at hi'
  exact h i (by omega) (by omega)

end RelM

/-! ## The pair generators -/
section Gen
variable {α : Type} {t : Nat}

/-- Same state up to the unused part of the trail. -/
def GR (s s' : GenSt α t) : Prop :=
  s.tempMat = s'.tempMat ∧ s.Mat_inv = s'.Mat_inv ∧ s.times = s'.times ∧
    s.invertible = s'.invertible ∧ ∀ k (h : k < t), k < s.times → s.trail[k] = s'.trail[k]

theorem wr2_trail {tr tr' : Vector (Vector (BitVec 8) 3) t} {k c : Nat} {v : BitVec 8} (hc : c < 3)
    (Q : Vector (BitVec 8) 3 → Vector (BitVec 8) 3 → Prop)
    (h : ∀ i (hi : i < t), i < k → tr[i] = tr'[i])
    (hQ : ∀ hk : k < t, Q (tr[k].set c v) (tr'[k].set c v)) :
    RelC (fun a b => (∀ i (hi : i < t), i < k → a[i] = b[i]) ∧ ∀ hk : k < t, Q a[k] b[k])
      (wr2 tr k c v) (wr2 tr' k c v) := by
  by_cases hk : k < t
  · rw [wr2_ok _ _ _ _ hk hc, wr2_ok _ _ _ _ hk hc]
    refine ⟨fun i hi hik => ?_, fun _ => ?_⟩
    · rw [Vector.getElem_set, Vector.getElem_set, if_neg (by omega), if_neg (by omega)]
      exact h i hi hik
    · rw [Vector.getElem_set_self, Vector.getElem_set_self]
      exact hQ hk
  · have e : ∀ tr : Vector (Vector (BitVec 8) 3) t, wr2 tr k c v = .error .oob := by
      intro tr; unfold wr2 rd; rw [dif_neg hk]; rfl
    rw [e, e]
    exact rfl

theorem record_rel {s s' : GenSt α t} (h : GR s s') (op : BitVec 8) (a b : Nat) :
    RelC GR (s.record op a b) (s'.record op a b) := by
  obtain ⟨T, I, tr, k, v⟩ := s
  obtain ⟨T', I', tr', k', v'⟩ := s'
  obtain ⟨h1, h2, h3, h4, h5⟩ := h
  simp only at h1 h2 h3 h4 h5
  subst h1 h2 h3 h4
  unfold GenSt.record
  simp only
  refine RelC.bind (wr2_trail (by omega) (fun x y => x[0] = y[0]) h5 (fun hk => by simp)) ?_
  rintro x y ⟨hx, hx0⟩
  refine RelC.bind (wr2_trail (by omega) (fun x y => x[0] = y[0] ∧ x[1] = y[1]) hx
    (fun hk => by simp [hx0 hk])) ?_
  rintro x y ⟨hx, hx0⟩
  refine RelC.bind (wr2_trail (by omega) (fun x y => x[0] = y[0] ∧ x[1] = y[1] ∧ x[2] = y[2]) hx
    (fun hk => by simp [hx0 hk])) ?_
  rintro x y ⟨hx, hx0⟩
  refine RelC.pure ⟨rfl, rfl, rfl, rfl, ?_⟩
  intro i hi hik
  simp only at hik ⊢
  by_cases e : i < k
  · exact hx i hi e
  · obtain rfl : i = k := by omega
    obtain ⟨e0, e1, e2⟩ := hx0 hi
    refine Vector.ext fun q hq => ?_
    have : q = 0 ∨ q = 1 ∨ q = 2 := by omega
    rcases this with rfl | rfl | rfl <;> assumption

theorem addRec_rel (i : Nat) {s s' : GenSt α t} (h : GR s s') (f : Nat → α → C α)
    (g : Nat → α → C α) (op : BitVec 8) (a b : Nat) :
    RelC GR (do
        let tempMat ← f i s'.tempMat
        let Mat_inv ← g i s.Mat_inv
        GenSt.record { s with tempMat, Mat_inv } op a b) (do
        let tempMat ← f i s'.tempMat
        let Mat_inv ← g i s'.Mat_inv
        GenSt.record { s' with tempMat, Mat_inv } op a b) := by
  obtain ⟨_, h2, h3, h4, h5⟩ := h
  rw [h2]
  refine RelC.bind_same fun T => RelC.bind_same fun I => ?_
  exact record_rel (s := { s with tempMat := T, Mat_inv := I })
    (s' := { s' with tempMat := T, Mat_inv := I }) ⟨rfl, rfl, h3, h4, h5⟩ _ _ _

theorem elim_rel (O : Ops α) (i n : Nat) {s s' : GenSt α t} (h : GR s s') :
    RelC GR (forUp (i + 1) n s fun j s => do
      if ← O.test i s.tempMat j then
        let tempMat ← O.addP i s.tempMat j
        let Mat_inv ← O.addF s.Mat_inv j i
        GenSt.record { s with tempMat, Mat_inv } 1 j i
      else pure s) (forUp (i + 1) n s' fun j s => do
      if ← O.test i s.tempMat j then
        let tempMat ← O.addP i s.tempMat j
        let Mat_inv ← O.addF s.Mat_inv j i
        GenSt.record { s with tempMat, Mat_inv } 1 j i
      else pure s) := by
  refine RelC.forUp h fun j _ _ s s' h => ?_
  rw [h.1]
  refine RelC.bind_same fun b => RelC.ite ?_ (RelC.pure h)
  exact addRec_rel j h (fun j A => O.addP i A j) (fun j A => O.addF A j i) 1 j i

theorem genStepNG_rel (n : Nat) (O : Ops α) (i : Nat) {s s' : GenSt α t} (h : GR s s') :
    RelM GR (genStepNG n O i s) (genStepNG n O i s') := by
  unfold genStepNG
  rw [h.1]
  refine RelM.bind_lift fun b => RelM.ite (RelM.liftC (elim_rel O i n h)) ?_
  refine RelM.bind (R := fun p q => GR p.1 q.1 ∧ p.2 = q.2) (RelM.liftC ?_) ?_
  · refine RelC.forBrk ⟨h, rfl⟩ ?_
    rintro j ⟨s, f⟩ ⟨s', f'⟩ ⟨h, rfl⟩
    simp only at h ⊢
    rw [h.1]
    refine RelC.bind_same fun b => RelC.ite ?_ (RelC.pure ⟨h, rfl⟩)
    rw [h.2.1]
    refine RelC.bind_same fun T => RelC.bind_same fun I => ?_
    refine RelC.bind (record_rel (s := { s with tempMat := T, Mat_inv := I })
      (s' := { s' with tempMat := T, Mat_inv := I }) ⟨rfl, rfl, h.2.2⟩ _ _ _) ?_
    intro s s' h
    exact RelC.pure (R := RelC.stepRel (fun (p q : GenSt α t × Bool) => GR p.1 q.1 ∧ p.2 = q.2))
      (a := .stop (s, false)) (b := .stop (s', false)) ⟨h, rfl⟩
  · rintro ⟨s, f⟩ ⟨s', f'⟩ ⟨h, rfl⟩
    simp only at h ⊢
    refine RelM.ite ?_ (RelM.liftC (elim_rel O i n h))
    refine RelM.random fun r => ?_
    refine RelM.bind (R := GR) (RelM.liftC ?_) ?_
    · rw [h.1]
      refine RelC.bind_same fun u => ?_
      exact addRec_rel i (s := { s with invertible := false }) (s' := { s' with invertible := false })
        ⟨h.1, h.2.1, h.2.2.1, rfl, h.2.2.2.2⟩ (fun _ A => O.swpP i A _ i) (fun _ A => O.swpF A _ i) 0 _ i
    · intro s s' h
      refine RelM.forUp h fun j _ _ s s' h => ?_
      refine RelM.random fun r => RelM.liftC ?_
      rw [h.1]
      refine RelC.bind_same fun u => RelC.ite ?_ (RelC.pure h)
      exact addRec_rel j h (fun j A => O.addP i A j) (fun j A => O.addF A j i) 1 j i

theorem genStep_rel (n : Nat) (O : Ops α) (i : Nat) {s s' : GenSt α t} (h : GR s s') :
    RelM GR (genStep n O i s) (genStep n O i s') := by
  unfold genStep
  rw [h.1]
  refine RelM.bind_lift fun b => RelM.ite (RelM.liftC (elim_rel O i n h)) ?_
  refine RelM.bind (R := fun p q => GR p.1 q.1 ∧ p.2 = q.2) (RelM.liftC ?_) ?_
  · refine RelC.forBrk ⟨h, rfl⟩ ?_
    rintro j ⟨s, f⟩ ⟨s', f'⟩ ⟨h, rfl⟩
    simp only at h ⊢
    rw [h.1]
    refine RelC.bind_same fun b => RelC.ite ?_ (RelC.pure ⟨h, rfl⟩)
    rw [h.2.1]
    refine RelC.bind_same fun T => RelC.bind_same fun I => ?_
    refine RelC.bind (record_rel (s := { s with tempMat := T, Mat_inv := I })
      (s' := { s' with tempMat := T, Mat_inv := I }) ⟨rfl, rfl, h.2.2⟩ _ _ _) ?_
    intro s s' h
    exact RelC.pure (R := RelC.stepRel (fun (p q : GenSt α t × Bool) => GR p.1 q.1 ∧ p.2 = q.2))
      (a := .stop (s, false)) (b := .stop (s', false)) ⟨h, rfl⟩
  · rintro ⟨s, f⟩ ⟨s', f'⟩ ⟨h, rfl⟩
    simp only at h ⊢
    refine RelM.ite ?_ (RelM.liftC (elim_rel O i n h))
    refine RelM.ite ?_ (RelM.pure ⟨h.1, h.2.1, h.2.2.1, rfl, h.2.2.2.2⟩)
    refine RelM.random fun r => ?_
    refine RelM.bind (R := GR) (RelM.liftC ?_) ?_
    · rw [h.1]
      refine RelC.bind_same fun u => ?_
      exact addRec_rel i (s := { s with invertible := false }) (s' := { s' with invertible := false })
        ⟨h.1, h.2.1, h.2.2.1, rfl, h.2.2.2.2⟩ (fun _ A => O.swpP i A _ i) (fun _ A => O.swpF A _ i) 0 _ i
    · intro s s' h
      refine RelM.forUp h fun j _ _ s s' h => ?_
      refine RelM.random fun r => RelM.liftC ?_
      rw [h.1]
      refine RelC.bind_same fun u => RelC.ite ?_ (RelC.pure h)
      exact addRec_rel j h (fun j A => O.addP i A j) (fun j A => O.addF A j i) 1 j i

theorem genBack_rel (O : Ops α) (i : Nat) {s s' : GenSt α t} (h : GR s s') :
    RelC GR (genBack O i s) (genBack O i s') := by
  unfold genBack
  refine RelC.forDown h fun j _ _ s s' h => ?_
  rw [h.1]
  refine RelC.bind_same fun b => RelC.ite ?_ (RelC.pure h)
  exact addRec_rel j h (fun j A => O.addB i A j) (fun j A => O.addF A j i) 1 j i

theorem rd2_trail {tr tr' : Vector (Vector (BitVec 8) 3) t} {j : Nat} (c : Nat)
    (h : ∀ hj : j < t, tr[j] = tr'[j]) : rd2 tr j c = rd2 tr' j c := by
  unfold rd2 rd
  by_cases hj : j < t
  · rw [dif_pos hj, dif_pos hj, h hj]
  · rw [dif_neg hj, dif_neg hj]

theorem replay_rel (O : Ops α) {s s' : GenSt α t} (h : GR s s') (A : α) :
    RelC Eq (forDown s.times 0 A fun j A => replayStep O s.trail j A)
      (forDown s'.times 0 A fun j A => replayStep O s'.trail j A) := by
  obtain ⟨h1, h2, h3, h4, h5⟩ := h
  rw [h3] at h5 ⊢
  refine RelC.forDown rfl fun j _ hj A A' e => ?_
  subst e
  unfold replayStep
  rw [rd2_trail 0 (fun h => h5 j h hj), rd2_trail 1 (fun h => h5 j h hj),
    rd2_trail 2 (fun h => h5 j h hj)]
  exact RelC.refl _

end Gen

theorem RelC_ok_iff {α β : Type} {R : α → β → Prop} {a : α} {b : β} :
    RelC R (.ok a) (.ok b) ↔ R a b := Iff.rfl

theorem RelC_ok_error {α β : Type} {R : α → β → Prop} {a : α} {e : Fault}
    (h : RelC R (.ok a) (.error e)) : False := h

theorem RelM.run {α : Type} {x y : CM α} {w w' : World} (h : RelM Eq x y) (hw : GenEq w w') :
    RelC (fun p q => p.1 = q.1 ∧ GenEq p.2 q.2) (x w) (y w') := h w w' hw

theorem GR_init {α : Type} {t : Nat} (T I : α) (tr tr' : Vector (Vector (BitVec 8) 3) t) :
    GR (GenSt.mk T I tr 0 true) (GenSt.mk T I tr' 0 true) :=
  ⟨rfl, rfl, rfl, rfl, fun _ _ h => absurd h (Nat.not_lt_zero _)⟩

attribute [irreducible] RelC RelM

theorem pair64_congr {env env' : Env} (he : env.endian = env'.endian) (a b : BitVec 32) :
    pair64 env a b = pair64 env' a b := by
  unfold pair64 stRes Env.cellOff
  rw [he]

theorem word_congr {env env' : Env} (he : env.endian = env'.endian) {w w' : World}
    (h : GenEq w w') (q : Nat) : w.word env q = w'.word env' q := by
  unfold World.word World.draw
  rw [pair64_congr he, h.1, h.2]

theorem draw_congr {w w' : World} (h : GenEq w w') (k : Nat) : w.draw k = w'.draw k := by
  unfold World.draw
  rw [h.1, h.2]

theorem adv_congr {w w' : World} (h : GenEq w w') (k : Nat) : GenEq (w.adv k) (w'.adv k) := by
  obtain ⟨h1, h2⟩ := h
  exact ⟨by unfold World.adv; simp only; rw [h1], h2⟩

theorem seeded_congr {w w' : World} (h : seedOf w = seedOf w') : GenEq w.seeded w'.seeded := by
  unfold World.seeded
  exact ⟨by simp only; rw [h], by simp only; rw [h]⟩

end WB
