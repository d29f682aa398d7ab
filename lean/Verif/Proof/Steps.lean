import Verif.Proof.RowOps

/-!
# One pivot step of `isinvert`, `invs` and `genMatpair` (helper lemmas)
-/
namespace WB
open Matrix

variable {n : Nat} {α : Type} {O : Ops α} {m : α → Mat n} {G : α → Prop} {lo hi : Nat}

/-- Upper bound on the number of row operations before pivot `i` of the forward pass. -/
def fwdOps (n : Nat) : Nat → Nat
  | 0 => 0
  | i + 1 => fwdOps n i + (n - i)

/-- Upper bound on the number of row operations when pivots `≥ i` have been treated by the
backward pass. -/
def bwdOps (n i : Nat) : Nat := n * n - fwdOps i i + i

theorem fwdOps_closed {n i : Nat} (h : i ≤ n) : 2 * fwdOps n i + i * i = 2 * n * i + i := by
  induction i with
  | zero => simp [fwdOps]
  | succ i ih =>
    have := ih (by omega)
    obtain ⟨d, rfl⟩ : ∃ d, n = i + 1 + d := ⟨n - (i + 1), by omega⟩
    simp only [fwdOps]
    rw [show i + 1 + d - i = d + 1 by omega]
    nlinarith

theorem fwdOps_self (n : Nat) : 2 * fwdOps n n = n * n + n := by
  have := fwdOps_closed (Nat.le_refl n)
  nlinarith

theorem bwdOps_succ {n i : Nat} (h : i < n) : bwdOps n (i + 1) + i = bwdOps n i := by
  unfold bwdOps
  have h1 := fwdOps_self (i + 1)
  have h2 := fwdOps_self i
  have h3 : (i + 1) * (i + 1) ≤ n * n := Nat.mul_le_mul h h
  have h4 : (i + 1) * (i + 1) = i * i + 2 * i + 1 := by ring
  have h5 : i * i ≤ n * n := Nat.mul_le_mul (by omega) (by omega)
  have h6 : i ≤ i * i := Nat.le_mul_self i
  generalize n * n = N at *
  generalize i * i = I at *
  omega

theorem bwdOps_top (n : Nat) : bwdOps n n = fwdOps n n := by
  unfold bwdOps
  have h1 := fwdOps_self n
  have h2 := Nat.le_mul_self n
  generalize n * n = N at *
  omega

theorem bwdOps_le {n i : Nat} (h : i ≤ n) : bwdOps n i ≤ n * n := by
  unfold bwdOps
  have h1 := fwdOps_self i
  have h2 := Nat.le_mul_self i
  have h5 : i * i ≤ n * n := Nat.mul_le_mul h h
  generalize n * n = N at *
  generalize i * i = I at *
  omega

theorem fwdOps_mono {n i j : Nat} (h : i ≤ j) : fwdOps n i ≤ fwdOps n j := by
  induction h with
  | refl => exact Nat.le_refl _
  | step _ ih => exact Nat.le_trans ih (Nat.le_add_right _ _)

theorem fwdOps_le {n i : Nat} (h : i ≤ n) : fwdOps n i ≤ n * n := by
  refine Nat.le_trans (fwdOps_mono h) ?_
  rw [← bwdOps_top]; exact bwdOps_le (Nat.le_refl _)

theorem fwdOps_room {n i : Nat} (h : i < n) : fwdOps n i + (n - i) ≤ n * n :=
  fwdOps_le (i := i + 1) h

theorem addR_mul (j i : Fin n) (A B : Mat n) : addR j i (A * B) = addR j i A * B := by
  rw [addR_eq, addR_eq, Matrix.mul_assoc]

theorem swapR_mul (i j : Fin n) (A B : Mat n) : swapR i j (A * B) = swapR i j A * B := by
  rw [swapR_eq, swapR_eq, Matrix.mul_assoc]

/-- Diagonal entries `< i` are 1. -/
def Diag (i : Nat) (A : Mat n) : Prop := ∀ c : Fin n, c.val < i → A c c = 1

theorem Diag.addR {i : Nat} {A : Mat n} (h : Diag i A) {j p : Fin n} (hj : i ≤ j.val) :
    Diag i (addR j p A) := by
  intro c hc
  unfold WB.addR
  rw [if_neg (by rintro rfl; omega)]
  exact h c hc

theorem Diag.swapR {i : Nat} {A : Mat n} (h : Diag i A) {j p : Fin n} (hj : i ≤ j.val)
    (hp : i ≤ p.val) : Diag i (swapR p j A) := by
  intro c hc
  unfold WB.swapR
  rw [Equiv.swap_apply_of_ne_of_ne (by rintro rfl; omega) (by rintro rfl; omega)]
  exact h c hc

theorem Diag.succ {A : Mat n} {i : Fin n} (h : Diag i.val A) (hi : A i i = 1) :
    Diag (i.val + 1) A := by
  intro c hc
  by_cases e : c = i
  · subst e; exact hi
  · exact h c (by have : c.val ≠ i.val := fun e' => e (Fin.ext e'); omega)

/-! ## isinvert -/

/-- One iteration of the outer loop of `isinvertM*`. -/
def isinvStep (n : Nat) (O : Ops α) (i : Nat) (A : α) : C (Step Int α) := do
  if ← O.test i A i then
    let A ← forUp (i + 1) n A fun j A => do
      if ← O.test i A j then O.addP i A j else pure A
    pure (.next A)
  else
    let (A, flag) ← forBrk (i + 1) n (A, true) fun j (A, flag) => do
      if ← O.test i A j then
        let A ← O.swpP i A i j
        pure (.stop (A, false))
      else pure (.next (A, flag))
    if flag then pure (.stop 0)
    else
      let A ← forUp (i + 1) n A fun k A => do
        if ← O.test i A k then O.addP i A k else pure A
      pure (.next A)

/-- Invariant of the outer loop of `isinvertM*`. -/
def isinvInv (m : α → Mat n) (G : α → Prop) (A0 : α) (i : Nat) (A : α) : Prop :=
  Tri i (m A) ∧ Diag i (m A) ∧ (m A).det = (m A0).det ∧ (G A0 → G A)

theorem isinvStep_spec (hO : OpsOK n O m G lo hi) (A0 : α) {i : Nat} (hlo : lo ≤ i)
    (hhi : i < hi) (hin : i < n) {A : α} (hI : isinvInv m G A0 i A) :
    Ok (isinvStep n O i A)
      (Step.holds (isinvInv m G A0 (i + 1)) (fun r => r = 0 ∧ (m A0).det = 0)) := by
  obtain ⟨hT, hD, hdet, hG⟩ := hI
  let fi : Fin n := ⟨i, hin⟩
  let J : Nat → α → Prop := fun _ A => Diag i (m A) ∧ (m A).det = (m A0).det ∧ (G A0 → G A)
  have hB : 0 + (n - 1 - fi.val) ≤ n := by omega
  have helim : ∀ A, J 0 A → Tri i (m A) → m A fi fi = 1 →
      Ok (forUp (i + 1) n A fun j A => do
        if ← O.test i A j then O.addP i A j else pure A)
        (isinvInv m G A0 (i + 1)) := by
    intro A hJ hT h1
    refine (elim_spec m J (fun j A => O.test i A j) (fun j A => O.addP i A j) fi n
      (fun A j hj => hO.test fi ⟨j, hj⟩ A hlo hhi) ?_ (fun _ _ h => h) hB hJ hT
      (Or.inl h1)).mono ?_
    · rintro k A j hj hij _ ⟨h1, h2, h3⟩ hT
      refine (hO.addP fi ⟨j, hj⟩ A hlo hhi hij hT).mono ?_
      rintro A' ⟨hm, hg⟩
      refine ⟨hm, ?_, ?_, fun h => hg (h3 h)⟩
      · rw [hm]; exact h1.addR (by simp only; exact Nat.le_of_lt hij)
      · rw [hm, det_addR (by intro e; have := congrArg Fin.val e; simp [fi] at this hij; omega), h2]
    · rintro A' ⟨hT', ⟨hD', hd', hG'⟩, hii⟩
      exact ⟨hT', Diag.succ (i := fi) hD' (hii.trans h1), hd', hG'⟩
  unfold isinvStep
  refine Ok.bind (hO.test fi fi A hlo hhi) ?_
  intro b hb
  by_cases hbt : b = true
  · simp only [hbt, if_true]
    refine Ok.bind (helim A ⟨hD, hdet, hG⟩ hT (hb.1 hbt)) ?_
    intro A' h'
    exact (Ok.pure_iff _ _).2 h'
  · simp only [hbt]
    have h0 : m A fi fi = 0 := z2_ne_one.1 (fun h => hbt (hb.2 h))
    refine Ok.bind (search_spec m J (fun j A => O.test i A j) (fun j A => O.swpP i A i j) fi n
      (fun A j hj => hO.test fi ⟨j, hj⟩ A hlo hhi) ?_ (k := 0) (by omega) ⟨hD, hdet, hG⟩ hT
      h0) ?_
    · rintro k A j hj hij _ ⟨h1, h2, h3⟩ hT
      have hne : fi ≠ ⟨j, hj⟩ := by
        intro e; have := congrArg Fin.val e; simp [fi] at this hij; omega
      refine (hO.swpP fi fi ⟨j, hj⟩ A hlo hhi (Nat.le_refl _) (Nat.le_of_lt hij) hne hT).mono ?_
      rintro A' ⟨hm, hg⟩
      refine ⟨hm, ?_, ?_, fun h => hg (h3 h)⟩
      · rw [hm]; exact h1.swapR (Nat.le_of_lt hij) (Nat.le_refl _)
      · rw [hm, det_swapR, h2]
    · rintro ⟨A', flag⟩ ⟨hT', htrue, hfalse⟩
      cases flag
      · obtain ⟨hJ, h1⟩ := hfalse rfl
        simp only [Bool.false_eq_true, if_false]
        refine Ok.bind (helim A' hJ hT' h1) ?_
        intro A'' h''
        exact (Ok.pure_iff _ _).2 h''
      · obtain ⟨⟨_, hd, _⟩, hz⟩ := htrue rfl
        simp only [if_true]
        refine (Ok.pure_iff _ _).2 ⟨rfl, ?_⟩
        rw [← hd]
        exact det_zero_of_no_pivot fi hT' hz

/-! ## invs -/

/-- One iteration of the outer forward loop of `invsM*`. -/
def invsStep (n : Nat) (O : Ops α) (i : Nat) (s : α × α) : C (α × α) := do
  if ← O.test i s.1 i then
    forUp (i + 1) n s fun j s => do
      if ← O.test i s.1 j then
        let A ← O.addP i s.1 j
        let B ← O.addF s.2 j i
        pure (A, B)
      else pure s
  else
    let s ← forBrk (i + 1) n s fun j s => do
      if ← O.test i s.1 j then
        let A ← O.swpP i s.1 i j
        let B ← O.swpF s.2 i j
        pure (.stop (A, B))
      else pure (.next s)
    forUp (i + 1) n s fun j s => do
      if ← O.test i s.1 j then
        let A ← O.addP i s.1 j
        let B ← O.addF s.2 j i
        pure (A, B)
      else pure s

/-- The inner loop of the backward pass of `invsM*`. -/
def backStep (O : Ops α) (i : Nat) (s : α × α) : C (α × α) :=
  forDown i 0 s fun j s => do
    if ← O.test i s.1 j then
      let A ← O.addB i s.1 j
      let B ← O.addF s.2 j i
      pure (A, B)
    else pure s

/-- Invariant of the forward pass of `invsM*`: the accumulated matrix is invertible and
transforms the input into the current matrix. -/
def invsInv (m : α → Mat n) (G : α → Prop) (A0 : α) (i : Nat) (s : α × α) : Prop :=
  Tri i (m s.1) ∧ m s.1 = m s.2 * m A0 ∧ (m s.2).det = 1 ∧ G s.2

theorem invsStep_spec (hO : OpsOK n O m G lo hi) (A0 : α) {i : Nat} (hlo : lo ≤ i)
    (hhi : i < hi) (hin : i < n) {s : α × α} (hI : invsInv m G A0 i s) :
    Ok (invsStep n O i s) (invsInv m G A0 (i + 1)) := by
  obtain ⟨hT, hmul, hdet, hG⟩ := hI
  let fi : Fin n := ⟨i, hin⟩
  let J : Nat → α × α → Prop := fun _ s =>
    m s.1 = m s.2 * m A0 ∧ (m s.2).det = 1 ∧ G s.2
  have hB : 0 + (n - 1 - fi.val) ≤ n := by omega
  have hne : ∀ j (hj : j < n), i < j → (⟨j, hj⟩ : Fin n) ≠ fi := by
    intro j hj hij e; have := congrArg Fin.val e; simp [fi] at this; omega
  have helim : ∀ s, J 0 s → Tri i (m s.1) →
      (m s.1 fi fi = 1 ∨ ∀ r : Fin n, i < r.val → m s.1 r fi = 0) →
      Ok (forUp (i + 1) n s fun j s => do
        if ← O.test i s.1 j then
          let A ← O.addP i s.1 j
          let B ← O.addF s.2 j i
          pure (A, B)
        else pure s) (invsInv m G A0 (i + 1)) := by
    intro s hJ hT h1
    refine (elim_spec (fun s : α × α => m s.1) J (fun j s => O.test i s.1 j)
      (fun j s => do
        let A ← O.addP i s.1 j
        let B ← O.addF s.2 j i
        pure (A, B)) fi n
      (fun s j hj => hO.test fi ⟨j, hj⟩ s.1 hlo hhi) ?_ (fun _ _ h => h) hB hJ hT h1).mono ?_
    · rintro k s j hj hij _ ⟨h1, h2, h3⟩ hT
      refine Ok.bind (hO.addP fi ⟨j, hj⟩ s.1 hlo hhi hij hT) ?_
      rintro A' ⟨hm, -⟩
      refine Ok.bind (hO.addF ⟨j, hj⟩ fi s.2 (hne j hj hij)) ?_
      rintro B' ⟨hmB, hg⟩
      refine (Ok.pure_iff _ _).2 ⟨hm, ?_, ?_, hg h3⟩
      · simp only; rw [hm, hmB, h1, addR_mul]
      · simp only; rw [hmB, det_addR (hne j hj hij), h2]
    · rintro s' ⟨hT', ⟨h1, h2, h3⟩, -⟩
      exact ⟨hT', h1, h2, h3⟩
  unfold invsStep
  refine Ok.bind (hO.test fi fi s.1 hlo hhi) ?_
  intro b hb
  by_cases hbt : b = true
  · simp only [hbt, if_true]
    exact helim s ⟨hmul, hdet, hG⟩ hT (Or.inl (hb.1 hbt))
  · simp only [hbt]
    have h0 : m s.1 fi fi = 0 := z2_ne_one.1 (fun h => hbt (hb.2 h))
    have := search_spec' (fun s : α × α => m s.1) J (fun j s => O.test i s.1 j)
      (fun j s => do
        let A ← O.swpP i s.1 i j
        let B ← O.swpF s.2 i j
        pure (A, B)) fi n
      (fun s j hj => hO.test fi ⟨j, hj⟩ s.1 hlo hhi) ?_ (fun _ _ h => h) (k := 0) (by omega)
      ⟨hmul, hdet, hG⟩ hT h0
    · simp only [bind_assoc, pure_bind] at this
      refine Ok.bind this ?_
      rintro s' ⟨hT', hJ', h'⟩
      exact helim s' hJ' hT' h'
    · rintro k s j hj hij _ ⟨h1, h2, h3⟩ hT
      refine Ok.bind (hO.swpP fi fi ⟨j, hj⟩ s.1 hlo hhi (Nat.le_refl _) (Nat.le_of_lt hij)
        (hne j hj hij).symm hT) ?_
      rintro A' ⟨hm, -⟩
      refine Ok.bind (hO.swpF fi ⟨j, hj⟩ s.2 (hne j hj hij).symm) ?_
      rintro B' ⟨hmB, hg⟩
      refine (Ok.pure_iff _ _).2 ⟨hm, ?_, ?_, hg h3⟩
      · simp only; rw [hm, hmB, h1, swapR_mul]
      · simp only; rw [hmB, det_swapR, h2]

/-- Invariant of the backward pass of `invsM*` (`good`: the input is invertible). -/
def backInv (m : α → Mat n) (G : α → Prop) (good : Prop) (A0 : α) (i : Nat) (s : α × α) :
    Prop :=
  (m s.2).det = 1 ∧ G s.2 ∧
    (good → m s.1 = m s.2 * m A0 ∧ Tri n (m s.1) ∧ (∀ r, m s.1 r r = 1) ∧ Upp i (m s.1))

theorem backStep_spec (hO : OpsOK n O m G lo hi) (good : Prop) (A0 : α) {i : Nat}
    (hlo : lo ≤ i) (hhi : i < hi) (hin : i < n) {s : α × α}
    (hI : backInv m G good A0 (i + 1) s) :
    Ok (backStep O i s) (backInv m G good A0 i) := by
  obtain ⟨hdet, hG, hgood⟩ := hI
  let fi : Fin n := ⟨i, hin⟩
  -- the relation between the two matrices holds as long as the pivot row is a unit row
  let P : α × α → Prop := fun s =>
    good → m s.1 = m s.2 * m A0 ∧ ∀ c, c ≠ fi → m s.1 fi c = 0
  let J : Nat → α × α → Prop := fun _ s => (m s.2).det = 1 ∧ G s.2 ∧ P s
  have hne : ∀ j (hj : j < n), j < i → (⟨j, hj⟩ : Fin n) ≠ fi := by
    intro j hj hij e; have := congrArg Fin.val e; simp [fi] at this; omega
  have hP : P s := by
    intro g
    obtain ⟨h1, hT, hd, hu⟩ := hgood g
    refine ⟨h1, ?_⟩
    intro c hc
    have : c.val ≠ i := fun e => hc (Fin.ext e)
    by_cases h : c.val < i
    · exact hT fi c c.2 h
    · exact hu fi c (by omega) (by simp only [fi]; omega)
  refine (back_spec (fun s : α × α => m s.1) J (fun j s => O.test i s.1 j)
      (fun j s => do
        let A ← O.addB i s.1 j
        let B ← O.addF s.2 j i
        pure (A, B)) fi n good
      (fun s j hj => hO.test fi ⟨j, hj⟩ s.1 hlo hhi) ?_ (fun _ _ h => h) (k := 0)
      (by simp only [fi]; omega) ⟨hdet, hG, hP⟩
      (fun g => ⟨(hgood g).2.1, (hgood g).2.2.1, (hgood g).2.2.2⟩)).mono ?_
  · rintro k s j hj hij _ ⟨h1, h2, h3⟩
    refine Ok.bind (hO.addB fi ⟨j, hj⟩ s.1 hlo hhi hij) ?_
    intro A' hm
    refine Ok.bind (hO.addF ⟨j, hj⟩ fi s.2 (hne j hj hij)) ?_
    rintro B' ⟨hmB, hg⟩
    refine (Ok.pure_iff _ _).2 ⟨⟨?_, hg h2, ?_⟩, fun _ hz => hm hz⟩
    · simp only; rw [hmB, det_addR (hne j hj hij), h1]
    · intro g
      obtain ⟨hmul, hz⟩ := h3 g
      simp only
      rw [hm hz, hmB, hmul, addR_mul]
      refine ⟨rfl, ?_⟩
      intro c hc
      rw [← addR_mul, ← hmul]
      simp only [addR]
      rw [if_neg (hne j hj hij).symm]
      exact hz c hc
  · rintro s' ⟨⟨h1, h2, h3⟩, hg⟩
    exact ⟨h1, h2, fun g => ⟨(h3 g).1, (hg g).1, (hg g).2.1, (hg g).2.2⟩⟩

theorem backInv_init {G : α → Prop} {A0 : α} {s : α × α} (h : invsInv m G A0 n s) :
    backInv m G ((m A0).det = 1) A0 n s := by
  obtain ⟨hT, hmul, hdet, hG⟩ := h
  refine ⟨hdet, hG, fun g => ⟨hmul, hT, ?_, ?_⟩⟩
  · have : (m s.1).det = 1 := by rw [hmul, det_mul, hdet, g, one_mul]
    exact diag_of_tri_det hT this
  · intro r c hc _
    have := c.2
    omega

theorem backInv_final {G : α → Prop} {A0 : α} {s : α × α}
    (h : backInv m G ((m A0).det = 1) A0 0 s) :
    (m s.2).det = 1 ∧ G s.2 ∧ ((m A0).det = 1 → m s.2 * m A0 = 1) := by
  obtain ⟨hdet, hG, hg⟩ := h
  refine ⟨hdet, hG, fun g => ?_⟩
  obtain ⟨hmul, hT, hd, hu⟩ := hg g
  rw [← hmul]
  exact eq_one_of hT hd hu

end WB
