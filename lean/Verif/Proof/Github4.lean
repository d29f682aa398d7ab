import Verif.Model.Github4
import Verif.Proof.Cmp

/-!
# Gauss–Jordan elimination of `/repo/test/github4` (helper lemmas)
-/
namespace WB.cmp.github4

/-- The size of the augmented matrix. -/
def Dim (n : Nat) (A : Mem2 ℚ) : Prop := A.rows = n ∧ A.cols = 2 * n

/-- The left half is the right half times `a`. -/
def Inv (n : Nat) (a : Nat → Nat → ℚ) (A : Mem2 ℚ) : Prop :=
  ∀ i k, i < n → k < n → A.cell i k = ∑ l ∈ Finset.range n, A.cell i (n + l) * a l k

/-- The first `c` columns are those of the identity. -/
def Cols (n c : Nat) (A : Mem2 ℚ) : Prop := ∀ i b, i < n → b < c → A.cell i b = if i = b then 1 else 0

theorem findPivo_run {n j : Nat} {A : Mem2 ℚ} (hA : Dim n A) (hj : j < n) :
    Ok (findPivo n A j) fun t => j ≤ t ∧ t < n ∧ ∀ i, j ≤ i → i < n → A.cell i j ≤ A.cell t j := by
  obtain ⟨h1, h2⟩ := hA
  refine Ok.forUp (P := fun k t => j ≤ t ∧ t < n ∧ ∀ i, j ≤ i → i < k → A.cell i j ≤ A.cell t j) (by omega)
    ⟨Nat.le_refl _, hj, fun i h3 h4 => by rw [show i = j by omega]⟩ ?_ fun _ h => h
  rintro k t hk1 hk2 ⟨h3, h4, h5⟩
  simp only [Ok.bind_iff, Mem2.Ok_get]
  refine ⟨by omega, by omega, ?_⟩
  by_cases hc : A.cell k j > A.cell t j
  · rw [if_pos hc, Ok.pure_iff]
    refine ⟨by omega, hk2, fun i h6 h7 => ?_⟩
    by_cases hik : i = k
    · rw [hik]
    · exact (h5 i h6 (by omega)).trans hc.le
  · rw [if_neg hc, Ok.pure_iff]
    refine ⟨h3, h4, fun i h6 h7 => ?_⟩
    by_cases hik : i = k
    · rw [hik]; exact not_lt.1 hc
    · exact h5 i h6 (by omega)

/-- Two rows exchanged. -/
def swapped (n j t : Nat) (A : Mem2 ℚ) : Mem2 ℚ :=
  ⟨A.rows, A.cols, fun a b => if b < 2 * n then A.cell (if a = j then t else if a = t then j else a) b else A.cell a b⟩

theorem swap_run {n j t : Nat} {A : Mem2 ℚ} (hA : Dim n A) (hj : j < n) (ht : t < n) :
    Ok (swapLine n A j t) fun r => r = swapped n j t A := by
  obtain ⟨h1, h2⟩ := hA
  unfold swapLine
  by_cases hc : t = j
  · subst hc
    rw [if_neg (by simp), Ok.pure_iff, swapped]
    obtain ⟨r, c, f⟩ := A
    simp only [Mem2.mk.injEq, true_and]
    funext a b
    by_cases ha : a = t
    · subst ha; simp
    · simp [ha]
  · rw [if_pos hc]
    refine Ok.forUp (P := fun k r => r = ⟨A.rows, A.cols, fun a b => if b < k then A.cell (if a = j then t else if a = t then j else a) b
      else A.cell a b⟩) (Nat.zero_le _) ?_ ?_ fun _ h => h
    · simp
    · rintro k r _ hk rfl
      simp only [Ok.bind_iff, Mem2.Ok_get, Mem2.Ok_put]
      refine ⟨by omega, by omega, by omega, by omega, ?_⟩
      simp only [Mem2.mk.injEq, true_and]
      funext a b
      by_cases hb : b = k
      · subst hb
        by_cases ha : a = t
        · subst ha; simp [hc]
        · by_cases ha' : a = j
          · subst ha'; simp [ha]
          · simp [ha, ha']
      · have : b < k + 1 ↔ b < k := by omega
        simp [hb, this]

/-- The elimination with the pivot at row and column `j`. -/
def eliminated (n j : Nat) (A : Mem2 ℚ) : Mem2 ℚ :=
  ⟨A.rows, A.cols, fun a b => if a < n ∧ b < 2 * n then
    (if a = j then A.cell j b / A.cell j j else A.cell a b - A.cell j b / A.cell j j * A.cell a j) else A.cell a b⟩

theorem get1 (A : Mem2 ℚ) (i j : Nat) (h1 : i < A.rows) (h2 : j < A.cols) : A.get i j = .ok (A.cell i j) := if_pos ⟨h1, h2⟩

/-- Row `i` after the elimination. -/
def newRow (j : Nat) (A : Mem2 ℚ) (a b : Nat) : ℚ :=
  if a = j then A.cell j b / A.cell j j else A.cell a b - A.cell j b / A.cell j j * A.cell a j

theorem calc_run {n j : Nat} {A : Mem2 ℚ} (hA : Dim n A) (hj : j < n) (hp : A.cell j j ≠ 0) :
    Ok (calcInverse n A j) fun r => r = eliminated n j A := by
  obtain ⟨h1, h2⟩ := hA
  unfold calcInverse
  refine Ok.forUp (P := fun i r => r.rows = n ∧ r.cols = 2 * n ∧
    ∀ a b, r.cell a b = if a < i ∧ b < 2 * n then newRow j A a b else A.cell a b) (Nat.zero_le _) ⟨h1, h2, by simp⟩ ?_ ?_
  · rintro i r _ hi ⟨r1, r2, hr⟩
    have fin : Ok (calcRow n j i r) fun B => B = ⟨r.rows, r.cols, fun a b => if a = i ∧ b < 2 * n then newRow j A i b else r.cell a b⟩ := by
      unfold calcRow
      by_cases hc : i = j
      · rw [if_neg (by simp [hc]), get1 r i j (by omega) (by omega), C_pure_bind]
        refine row_run (newRow j A i) (by omega) (by omega) fun k B hk hr1 hr2 hB => ?_
        rw [get1 B i k (by omega) (by omega), C_pure_bind, hB i k (.inr (Nat.le_refl _)), hr, hr, if_neg (by omega), if_neg (by omega),
          hc, fdiv, if_neg hp, C_pure_bind, newRow, if_pos rfl]
      · rw [if_pos hc, get1 r i j (by omega) (by omega), C_pure_bind]
        refine row_run (newRow j A i) (by omega) (by omega) fun k B hk hr1 hr2 hB => ?_
        have b1 : B.cell i k = A.cell i k := by rw [hB i k (.inr (Nat.le_refl _)), hr, if_neg (by omega)]
        have b3 : r.cell i j = A.cell i j := by rw [hr, if_neg (by omega)]
        have b2 : B.cell j j ≠ 0 ∧ B.cell j k / B.cell j j = A.cell j k / A.cell j j := by
          rw [hB j k (.inl (Ne.symm hc)), hB j j (.inl (Ne.symm hc)), hr, hr]
          by_cases hji : j < i
          · rw [if_pos (c := j < i ∧ j < 2 * n) (by omega), if_pos (c := j < i ∧ k < 2 * n) (by omega), newRow, newRow, if_pos rfl, if_pos rfl, div_self hp]
            exact ⟨one_ne_zero, div_one _⟩
          · rw [if_neg (by omega), if_neg (by omega)]
            exact ⟨hp, rfl⟩
        rw [get1 B i k (by omega) (by omega), C_pure_bind, get1 B j k (by omega) (by omega), C_pure_bind,
          get1 B j j (by omega) (by omega), C_pure_bind, fdiv, if_neg b2.1, C_pure_bind, b1, b2.2, b3, newRow, if_neg hc]
    refine fin.mono ?_
    rintro B rfl
    refine ⟨r1, r2, fun a b => ?_⟩
    simp only
    by_cases ha : a = i ∧ b < 2 * n
    · rw [if_pos ha, if_pos (by omega), ha.1]
    · rw [if_neg ha, hr]
      by_cases ha2 : a < i ∧ b < 2 * n
      · rw [if_pos ha2, if_pos (by omega)]
      · rw [if_neg ha2, if_neg (by omega)]
  · rintro ⟨r, c, f⟩ ⟨r1, r2, hr⟩
    simp only at r1 r2 hr
    unfold eliminated
    simp only [Mem2.mk.injEq]
    exact ⟨by omega, by omega, funext fun a => funext fun b => hr a b⟩

theorem calc_zero {n j : Nat} {A : Mem2 ℚ} (hA : Dim n A) (hj : j < n) (hp : A.cell j j = 0) : calcInverse n A j = .error .divZero := by
  obtain ⟨h1, h2⟩ := hA
  obtain ⟨n, rfl⟩ := Nat.exists_eq_add_of_le' (show 1 ≤ n by omega)
  refine forUp_err ?_
  unfold calcRow
  by_cases hc : 0 = j
  · subst hc
    rw [if_neg (by simp), get1 A 0 0 (by omega) (by omega), C_pure_bind]
    refine forUp_err (n := 2 * n + 1) ?_
    rw [get1 A 0 0 (by omega) (by omega), C_pure_bind, fdiv, if_pos hp]
    rfl
  · rw [if_pos hc, get1 A 0 j (by omega) (by omega), C_pure_bind]
    refine forUp_err (n := 2 * n + 1) ?_
    rw [get1 A 0 0 (by omega) (by omega), C_pure_bind, get1 A j 0 (by omega) (by omega), C_pure_bind,
      get1 A j j (by omega) (by omega), C_pure_bind, fdiv, if_pos hp]
    rfl

theorem swapped_inv {n j t : Nat} {a : Nat → Nat → ℚ} {A : Mem2 ℚ} (hj : j < n) (ht : t < n) (h : Inv n a A) : Inv n a (swapped n j t A) := by
  intro i k hi hk
  have hs : (if i = j then t else if i = t then j else i) < n := by split <;> [skip; split] <;> omega
  simp only [swapped, show k < 2 * n by omega, if_true]
  rw [h _ k hs hk]
  refine Finset.sum_congr rfl fun l hl => ?_
  rw [if_pos (c := n + l < 2 * n) (by have := Finset.mem_range.1 hl; omega)]

theorem swapped_cols {n j t : Nat} {A : Mem2 ℚ} (hj : j < n) (hjt : j ≤ t) (ht : t < n) (h : Cols n j A) : Cols n j (swapped n j t A) := by
  intro i b hi hb
  simp only [swapped, show b < 2 * n by omega, if_true]
  by_cases h1 : i = j
  · rw [if_pos h1, h t b ht hb, if_neg (by omega), if_neg (by omega)]
  · rw [if_neg h1]
    by_cases h2 : i = t
    · rw [if_pos h2, h j b hj hb, if_neg (by omega), if_neg (by omega)]
    · rw [if_neg h2, h i b hi hb]

theorem eliminated_inv {n j : Nat} {a : Nat → Nat → ℚ} {A : Mem2 ℚ} (hj : j < n) (h : Inv n a A) : Inv n a (eliminated n j A) := by
  intro i k hi hk
  simp only [eliminated, hi, show k < 2 * n by omega, and_self, if_true, true_and]
  have e : ∀ l ∈ Finset.range n, (if n + l < 2 * n then (if i = j then A.cell j (n + l) / A.cell j j else
      A.cell i (n + l) - A.cell j (n + l) / A.cell j j * A.cell i j) else A.cell i (n + l)) * a l k =
      (if i = j then (A.cell j (n + l) * a l k) * (A.cell j j)⁻¹ else
      A.cell i (n + l) * a l k - (A.cell j (n + l) * a l k) * ((A.cell j j)⁻¹ * A.cell i j)) := fun l hl => by
    rw [if_pos (by have := Finset.mem_range.1 hl; omega)]
    split <;> ring
  rw [Finset.sum_congr rfl e]
  by_cases hc : i = j
  · simp only [if_pos hc]
    rw [← Finset.sum_mul, ← h j k hj hk, div_eq_mul_inv]
  · simp only [if_neg hc]
    rw [Finset.sum_sub_distrib, ← Finset.sum_mul, ← h j k hj hk, ← h i k hi hk]
    ring

theorem eliminated_cols {n j : Nat} {A : Mem2 ℚ} (hj : j < n) (hp : A.cell j j ≠ 0) (h : Cols n j A) : Cols n (j + 1) (eliminated n j A) := by
  intro i b hi hb
  simp only [eliminated, hi, show b < 2 * n by omega, and_self, if_true]
  by_cases hbj : b = j
  · subst hbj
    rw [div_self hp]
    by_cases hc : i = b
    · rw [if_pos hc, if_pos hc]
    · rw [if_neg hc, if_neg hc]; ring
  · have hb' : b < j := by omega
    rw [h j b hj hb', h i b hi hb', if_neg (show ¬ j = b by omega)]
    by_cases hc : i = j
    · rw [if_pos hc, if_neg (by omega)]; simp
    · rw [if_neg hc]; simp

theorem step_run {n j : Nat} {A : Mem2 ℚ} (hA : Dim n A) (hj : j < n) :
    ∃ t, j ≤ t ∧ t < n ∧ (∀ i, j ≤ i → i < n → A.cell i j ≤ A.cell t j) ∧
      (A.cell t j ≠ 0 → step n j A = .ok (eliminated n j (swapped n j t A))) ∧
      (A.cell t j = 0 → step n j A = .error .divZero) := by
  obtain ⟨t, e, h1, h2, h3⟩ := findPivo_run hA hj
  obtain ⟨B, e', rfl⟩ := swap_run hA hj h2
  have hd : Dim n (swapped n j t A) := hA
  have hp : (swapped n j t A).cell j j = A.cell t j := by simp [swapped, show j < 2 * n by omega]
  refine ⟨t, h1, h2, h3, fun hz => ?_, fun hz => ?_⟩
  · obtain ⟨r, e2, rfl⟩ := calc_run hd hj (by rw [hp]; exact hz)
    rw [step, e, C_pure_bind, e', C_pure_bind, e2]
  · rw [step, e, C_pure_bind, e', C_pure_bind, calc_zero hd hj (by rw [hp]; exact hz)]

/-- A division by zero. -/
def DivZero (e : Fault) : Prop := e = .divZero

theorem invSMat_run {n : Nat} {a : Nat → Nat → ℚ} {A : Mem2 ℚ} (hA : Dim n A) (hI : Inv n a A) :
    Out DivZero (invSMat n A) fun r => Dim n r ∧ Inv n a r ∧ Cols n n r := by
  refine Out.forUp (P := fun j r => Dim n r ∧ Inv n a r ∧ Cols n j r) ⟨hA, hI, fun i b _ h => absurd h (by omega)⟩ ?_ fun _ h => h
  rintro j r hj ⟨h1, h2, h3⟩
  obtain ⟨t, t1, t2, t3, t4, t5⟩ := step_run h1 hj
  by_cases hz : r.cell t j = 0
  · exact .inr ⟨_, rfl, t5 hz⟩
  · have hp : (swapped n j t r).cell j j ≠ 0 := by simpa [swapped, show j < 2 * n by omega] using hz
    exact .inl ⟨_, t4 hz, h1, eliminated_inv hj (swapped_inv hj t2 h2), eliminated_cols hj hp (swapped_cols hj t1 t2 h3)⟩

/-- Once the left half is the identity, nothing changes any more. -/
theorem invSMat_again {n : Nat} {A : Mem2 ℚ} (hA : Dim n A) (hc : Cols n n A) : invSMat n A = .ok A := by
  have : Out (fun _ => False) (invSMat n A) fun r => r = A := by
    refine Out.forUp (P := fun j r => r = A) rfl ?_ fun _ h => h
    rintro j r hj rfl
    obtain ⟨t, t1, t2, t3, t4, t5⟩ := step_run hA hj
    have htj : t = j := by
      by_contra hne
      have := t3 j (Nat.le_refl _) hj
      rw [hc j j hj hj, hc t j t2 hj, if_pos rfl, if_neg hne] at this
      exact absurd this (by norm_num)
    subst htj
    have hp : r.cell t t = 1 := by rw [hc t t hj hj, if_pos rfl]
    refine .inl ⟨_, t4 (by rw [hp]; exact one_ne_zero), ?_⟩
    have hs : swapped n t t r = r := by
      obtain ⟨x, c, f⟩ := r
      simp only [swapped, Mem2.mk.injEq, true_and]
      funext a b
      by_cases ha : a = t
      · subst ha; simp
      · simp [ha]
    rw [hs]
    obtain ⟨x, c, f⟩ := r
    simp only [eliminated, Mem2.mk.injEq, true_and]
    simp only at hp
    funext a b
    by_cases hab : a < n ∧ b < 2 * n
    · rw [if_pos hab, hp, div_one]
      by_cases ha : a = t
      · rw [if_pos ha, ha]
      · have := hc a t hab.1 hj
        simp only at this
        rw [if_neg ha, this, if_neg ha]
        ring
    · rw [if_neg hab]
  rcases this with ⟨r, e, rfl⟩ | ⟨_, h, _⟩
  · exact e
  · exact h.elim

theorem init_run (junk : Nat → Nat → ℚ) (n : Nat) (a : Nat → Nat → ℚ) :
    Ok (initM junk n a) fun r => Dim n r ∧ (∀ i k, i < n → k < n → r.cell i k = a i k) ∧
      ∀ i k, i < n → k < n → r.cell i (n + k) = if i = k then 1 else 0 := by
  unfold initM
  rw [Ok.bind_iff]
  refine (fill (look := fun (m : Mem2 ℚ) i j => m.cell i j) (F := a) (Good := fun m => Dim n m) ⟨rfl, rfl⟩ ?_).mono ?_
  · rintro i j m hi hj ⟨h1, h2⟩
    rw [Mem2.Ok_put]
    exact ⟨by omega, ⟨h1, h2⟩, if_pos ⟨rfl, rfl⟩, fun k l _ _ h => if_neg (by omega)⟩
  · rintro A ⟨hA, hv⟩
    unfold augmentingmatrix
    refine Ok.forUp (P := fun i r => Dim n r ∧ (∀ x k, x < n → k < n → r.cell x k = a x k) ∧
      ∀ x k, x < i → k < n → r.cell x (n + k) = if x = k then 1 else 0) (Nat.zero_le _)
      ⟨hA, hv, fun x k h => absurd h (by omega)⟩ ?_ fun _ h => h
    rintro i r _ hi ⟨h1, h2, h3⟩
    refine Ok.forUp (P := fun j r => Dim n r ∧ (∀ x k, x < n → k < n → r.cell x k = a x k) ∧
      ∀ x k, (x < i ∨ x = i ∧ n + k < j) → k < n → r.cell x (n + k) = if x = k then 1 else 0) (by omega)
      ⟨h1, h2, fun x k h => h3 x k (by omega)⟩ ?_ ?_
    · rintro j r hj1 hj2 ⟨⟨g1, g1'⟩, g2, g3⟩
      obtain ⟨m, rfl⟩ := Nat.exists_eq_add_of_le hj1
      have hm : (n + m) % n = m := by rw [Nat.add_mod_left, Nat.mod_eq_of_lt (by omega)]
      rw [hm, show (if i = m then r.put i (n + m) 1 else r.put i (n + m) 0) = r.put i (n + m) (if i = m then 1 else 0) by split <;> rfl,
        Mem2.Ok_put]
      refine ⟨by omega, ⟨g1, g1'⟩, fun x k hx hk => ?_, fun x k hx hk => ?_⟩
      · simp only
        rw [if_neg (by omega), g2 x k hx hk]
      · simp only
        by_cases hc : x = i ∧ n + k = n + m
        · rw [if_pos hc, hc.1, show k = m by omega]
        · rw [if_neg hc, g3 x k (by omega) hk]
    · rintro r ⟨g1, g2, g3⟩
      exact ⟨g1, g2, fun x k hx hk => g3 x k (by omega) hk⟩

theorem init_inv {n : Nat} {a : Nat → Nat → ℚ} {A : Mem2 ℚ} (h1 : ∀ i k, i < n → k < n → A.cell i k = a i k)
    (h2 : ∀ i k, i < n → k < n → A.cell i (n + k) = if i = k then 1 else 0) : Inv n a A := by
  intro i k hi hk
  rw [h1 i k hi hk]
  have : ∀ l ∈ Finset.range n, A.cell i (n + l) * a l k = if i = l then a i k else 0 := fun l hl => by
    rw [h2 i l hi (Finset.mem_range.1 hl)]
    by_cases h : i = l
    · rw [if_pos h, if_pos h, h, one_mul]
    · rw [if_neg h, if_neg h, zero_mul]
  rw [Finset.sum_congr rfl this, Finset.sum_ite_eq, if_pos (Finset.mem_range.2 hi)]

end WB.cmp.github4
