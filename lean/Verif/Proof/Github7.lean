import Verif.Model.Github7
import Verif.Proof.Cmp

/-!
# Gaussian elimination of `/repo/test/github7` (helper lemmas)
-/
namespace WB.cmp.github7

theorem get1 (A : Mem2 ℚ) (i j : Nat) (h1 : i < A.rows) (h2 : j < A.cols) : A.get i j = .ok (A.cell i j) := if_pos ⟨h1, h2⟩

theorem get0 (A : Mem ℚ) (i : Nat) (h : i < A.size) : A.get i = .ok (A.cell i) := if_pos h

def Dim (n : Nat) (A : Mem2 ℚ) : Prop := A.rows = n ∧ A.cols = n

/-- Row `j` minus `k` times row `i`, from column `lim` on. -/
def minus (n i j : Nat) (k : ℚ) (lim : Nat) (A : Mem2 ℚ) : Mem2 ℚ :=
  ⟨A.rows, A.cols, fun a b => if a = j ∧ lim ≤ b ∧ b < n then A.cell j b - A.cell i b * k else A.cell a b⟩

theorem subtract_run {junk : Nat → ℚ} {n i j lim : Nat} {k : ℚ} {A : Mem2 ℚ} (hA : Dim n A) (hi : i < n) (hj : j < n) (hl : lim ≤ n) :
    subtract junk n A i j k lim = .ok (minus n i j k lim A) := by
  obtain ⟨h1, h2⟩ := hA
  have e1 : Ok (qMatrixExtractRow junk n A i) fun r => r.size = n ∧ ∀ b, b < n → r.cell b = A.cell i b :=
    block_run (A := ⟨n, junk⟩) (fun b => A.cell i b) (Nat.le_refl _) fun k B hk _ _ => by
      rw [get1 A i k (by omega) (by omega), C_pure_bind]
  obtain ⟨b1, e1, s1, v1⟩ := e1
  have e2 : Ok (multiplyRow b1 k n) fun r => r.size = b1.size ∧ ∀ b, b < n → r.cell b = A.cell i b * k :=
    block_run (fun b => A.cell i b * k) (by omega) fun x B hx hs hB => by
      rw [get0 B x (by omega), C_pure_bind, hB x (Nat.le_refl _), v1 x hx]
  obtain ⟨b2, e2, s2, v2⟩ := e2
  obtain ⟨r, e3, rfl⟩ := row_run_from (lo := lim) (m := n) (i := j) (A := A)
    (f := fun k A => do A.put j k ((← A.get j k) - (← b2.get k))) (fun b => A.cell j b - A.cell i b * k) (by omega) hl (by omega)
    fun x B _ hx hr hc hB => by
      rw [get1 B j x (by omega) (by omega), C_pure_bind, get0 b2 x (by omega), C_pure_bind, hB j x (.inr (Nat.le_refl _)), v2 x hx]
  rw [subtract, e1, C_pure_bind, e2, C_pure_bind]
  exact e3

/-- The left matrix is the right matrix times `a`. -/
def Rel (n : Nat) (a : Nat → Nat → ℚ) (M R : Mem2 ℚ) : Prop :=
  ∀ i k, i < n → k < n → M.cell i k = ∑ l ∈ Finset.range n, R.cell i l * a l k

/-- The first `c` columns are zero below the diagonal. -/
def Lower (n c : Nat) (M : Mem2 ℚ) : Prop := ∀ r b, r < n → b < c → b < r → M.cell r b = 0

theorem minus_rel {n i j lim : Nat} {k : ℚ} {a : Nat → Nat → ℚ} {M R : Mem2 ℚ} (hi : i < n) (hj : j < n) (h : Rel n a M R)
    (hz : ∀ b, b < lim → b < n → M.cell i b = 0) : Rel n a (minus n i j k lim M) (minus n i j k 0 R) := by
  intro r c hr hc
  by_cases hrj : r = j
  · subst hrj
    have e : ∀ l ∈ Finset.range n, (minus n i r k 0 R).cell r l * a l c = R.cell r l * a l c - R.cell i l * a l c * k := fun l hl => by
      simp only [minus]
      rw [if_pos ⟨by trivial, Nat.zero_le _, Finset.mem_range.1 hl⟩]
      ring
    rw [Finset.sum_congr rfl e, Finset.sum_sub_distrib, ← Finset.sum_mul, ← h r c hr hc, ← h i c hi hc]
    simp only [minus]
    by_cases hcl : lim ≤ c
    · rw [if_pos ⟨by trivial, hcl, hc⟩]
    · rw [if_neg (by omega), hz c (by omega) hc]
      ring
  · simp only [minus, hrj, false_and, if_false]
    exact h r c hr hc

/-- Two rows exchanged. -/
def swapped (n j t : Nat) (A : Mem2 ℚ) : Mem2 ℚ :=
  ⟨A.rows, A.cols, fun a b => if b < n then A.cell (if a = j then t else if a = t then j else a) b else A.cell a b⟩

theorem swap_run {n j t : Nat} {A : Mem2 ℚ} (hA : Dim n A) (hj : j < n) (ht : t < n) (hc : t ≠ j) :
    qMatrixSwapRows n A j t = .ok (swapped n j t A) := by
  obtain ⟨h1, h2⟩ := hA
  refine Ok.eq.1 ?_
  refine Ok.forUp (P := fun k r => r = ⟨A.rows, A.cols, fun a b => if b < k then A.cell (if a = j then t else if a = t then j else a) b
    else A.cell a b⟩) (Nat.zero_le _) ?_ ?_ fun _ h => h
  · simp
  · rintro k r _ hk rfl
    simp only [Ok.bind_iff, Mem2.Ok_get, Mem2.Ok_put]
    refine ⟨by omega, by omega, by omega, by omega, ?_⟩
    simp only [Mem2.mk.injEq, true_and]
    funext a b
    by_cases hb : b = k
    · subst hb
      by_cases ha : a = t
      · subst ha; simp [hc]
      · by_cases ha' : a = j
        · subst ha'; simp [ha]
        · simp [ha, ha']
    · have : b < k + 1 ↔ b < k := by omega
      simp [hb, this]

theorem swapped_rel {n j t : Nat} {a : Nat → Nat → ℚ} {M R : Mem2 ℚ} (hj : j < n) (ht : t < n) (h : Rel n a M R) :
    Rel n a (swapped n j t M) (swapped n j t R) := by
  intro i k hi hk
  have hs : (if i = j then t else if i = t then j else i) < n := by split <;> [skip; split] <;> omega
  simp only [swapped, hk, if_true]
  rw [h _ k hs hk]
  refine Finset.sum_congr rfl fun l hl => ?_
  rw [if_pos (c := l < n) (Finset.mem_range.1 hl)]

theorem swapped_lower {n j t : Nat} {M : Mem2 ℚ} (hj : j < n) (hjt : j ≤ t) (ht : t < n) (h : Lower n j M) : Lower n j (swapped n j t M) := by
  intro r b hr hb hbr
  simp only [swapped, show b < n by omega, if_true]
  refine h _ b ?_ hb ?_ <;> split <;> [skip; split; skip; split] <;> omega

/-- The effect of both exchanges. -/
def swapped2 (n i : Nat) (rc : Nat × Nat) (M : Mem2 ℚ) : Mem2 ℚ :=
  let M := if rc.1 ≠ i then swapped n i rc.1 M else M
  if rc.2 ≠ i then swapped n i rc.2 M else M

theorem swaps_run {n i : Nat} {rc : Nat × Nat} {s : Mem2 ℚ × Mem2 ℚ} (h1 : Dim n s.1) (h2 : Dim n s.2) (hi : i < n) (hr : rc.1 < n)
    (hc : rc.2 < n) : swaps n i rc s = .ok (swapped2 n i rc s.1, swapped2 n i rc s.2) := by
  obtain ⟨M, R⟩ := s
  obtain ⟨r, c⟩ := rc
  simp only at h1 h2 hr hc
  have d1 : ∀ t, Dim n (swapped n i t M) := fun _ => h1
  have d2 : ∀ t, Dim n (swapped n i t R) := fun _ => h2
  unfold swaps swapped2
  by_cases g1 : r = i <;> by_cases g2 : c = i
  · simp only [g1, g2, ne_eq, not_true_eq_false, if_false]; rfl
  · simp only [g1, g2, ne_eq, not_true_eq_false, not_false_eq_true, if_false, if_true, pure_bind]
    rw [swap_run h1 hi hc g2, C_pure_bind, swap_run h2 hi hc g2, C_pure_bind]; rfl
  · simp only [g1, g2, ne_eq, not_true_eq_false, not_false_eq_true, if_false, if_true]
    rw [swap_run h1 hi hr g1, C_pure_bind, swap_run h2 hi hr g1, C_pure_bind]; rfl
  · simp only [g1, g2, ne_eq, not_true_eq_false, not_false_eq_true, if_false, if_true]
    rw [swap_run h1 hi hr g1, C_pure_bind, swap_run h2 hi hr g1, C_pure_bind, pure_bind]
    simp only
    rw [swap_run (d1 r) hi hc g2, C_pure_bind, swap_run (d2 r) hi hc g2, C_pure_bind]; rfl

theorem swapped2_dim {n i : Nat} {rc : Nat × Nat} {M : Mem2 ℚ} (h : Dim n M) : Dim n (swapped2 n i rc M) := by
  unfold swapped2
  split <;> split <;> exact h

theorem swapped2_rel {n i : Nat} {rc : Nat × Nat} {a : Nat → Nat → ℚ} {M R : Mem2 ℚ} (hi : i < n) (hr : rc.1 < n) (hc : rc.2 < n)
    (h : Rel n a M R) : Rel n a (swapped2 n i rc M) (swapped2 n i rc R) := by
  unfold swapped2
  by_cases g1 : rc.1 ≠ i <;> by_cases g2 : rc.2 ≠ i <;> simp only [g1, g2, if_true, if_false, not_false_eq_true, ne_eq, not_true_eq_false]
  · exact swapped_rel hi hc (swapped_rel hi hr h)
  · exact swapped_rel hi hr h
  · exact swapped_rel hi hc h
  · exact h

theorem swapped2_lower {n i : Nat} {rc : Nat × Nat} {M : Mem2 ℚ} (hi : i < n) (hr : i ≤ rc.1 ∧ rc.1 < n) (hc : i ≤ rc.2 ∧ rc.2 < n)
    (h : Lower n i M) : Lower n i (swapped2 n i rc M) := by
  unfold swapped2
  by_cases g1 : rc.1 ≠ i <;> by_cases g2 : rc.2 ≠ i <;> simp only [g1, g2, if_true, if_false, not_false_eq_true, ne_eq, not_true_eq_false]
  · exact swapped_lower hi hc.1 hc.2 (swapped_lower hi hr.1 hr.2 h)
  · exact swapped_lower hi hr.1 hr.2 h
  · exact swapped_lower hi hc.1 hc.2 h
  · exact h

/-- What can go wrong. -/
def Bad (e : Fault) : Prop := e = .divZero ∨ e = .overflow

/-- The absolute value without the fraction. -/
def truncAbs (x : ℚ) : ℚ := ((|if 0 ≤ x then ⌊x⌋ else ⌈x⌉| : Int) : ℚ)

theorem absInt_run (x : ℚ) : Out Bad (absInt x) fun y => y = truncAbs x := by
  unfold absInt
  by_cases h : -2147483647 ≤ (if 0 ≤ x then ⌊x⌋ else ⌈x⌉) ∧ (if 0 ≤ x then ⌊x⌋ else ⌈x⌉) ≤ 2147483647
  · exact .inl ⟨_, if_pos h, by simp [truncAbs]⟩
  · exact .inr ⟨_, .inr rfl, if_neg h⟩

theorem mainElement_run {n i : Nat} {M : Mem2 ℚ} (hM : Dim n M) (hi : i < n) :
    Out Bad (qMatrixMainElementLQ n M i) fun rc => (i ≤ rc.1 ∧ rc.1 < n) ∧ (i ≤ rc.2 ∧ rc.2 < n) ∧
      ∀ a b, i ≤ a → a < n → i ≤ b → b < n → truncAbs (M.cell a b) ≤ truncAbs (M.cell rc.1 rc.2) := by
  obtain ⟨h1, h2⟩ := hM
  unfold qMatrixMainElementLQ
  rw [get1 M i i (by omega) (by omega), C_pure_bind]
  refine (absInt_run _).bind fun m hm => ?_
  refine Out.bind (P := fun s : ℚ × Nat × Nat => (i ≤ s.2.1 ∧ s.2.1 < n) ∧ (i ≤ s.2.2 ∧ s.2.2 < n) ∧ s.1 = truncAbs (M.cell s.2.1 s.2.2) ∧
      ∀ a b, i ≤ a → a < n → i ≤ b → b < n → truncAbs (M.cell a b) ≤ s.1) ?_ ?_
  · refine Out.forUpFrom (P := fun x (s : ℚ × Nat × Nat) => (i ≤ s.2.1 ∧ s.2.1 < n) ∧ (i ≤ s.2.2 ∧ s.2.2 < n) ∧
      s.1 = truncAbs (M.cell s.2.1 s.2.2) ∧ ∀ a b, i ≤ a → a < x → i ≤ b → b < n → truncAbs (M.cell a b) ≤ s.1) (by omega)
      ⟨⟨Nat.le_refl _, hi⟩, ⟨Nat.le_refl _, hi⟩, hm, fun a b h3 h4 => absurd h4 (by omega)⟩ ?_ fun _ h => h
    rintro x s hx1 hx2 ⟨g1, g2, g3, g4⟩
    refine Out.forUpFrom (P := fun y (s : ℚ × Nat × Nat) => (i ≤ s.2.1 ∧ s.2.1 < n) ∧ (i ≤ s.2.2 ∧ s.2.2 < n) ∧
      s.1 = truncAbs (M.cell s.2.1 s.2.2) ∧
      ∀ a b, i ≤ a → (a < x ∧ b < n ∨ a = x ∧ b < y) → i ≤ b → truncAbs (M.cell a b) ≤ s.1) (by omega)
      ⟨g1, g2, g3, fun a b h3 h4 h5 => g4 a b h3 (by omega) h5 (by omega)⟩ ?_ ?_
    · rintro y ⟨m, r, c⟩ hy1 hy2 ⟨k1, k2, k3, k4⟩
      simp only at k1 k2 k3 k4 ⊢
      rw [get1 M x y (by omega) (by omega), C_pure_bind]
      refine (absInt_run _).bind fun z hz => ?_
      by_cases hlt : m < z
      · rw [if_pos hlt]
        refine Out.pure ⟨⟨hx1, hx2⟩, ⟨hy1, hy2⟩, hz, fun a b h3 h4 h5 => ?_⟩
        by_cases hab : a = x ∧ b = y
        · rw [hab.1, hab.2, hz]
        · exact (k4 a b h3 (by omega) h5).trans hlt.le
      · rw [if_neg hlt]
        refine Out.pure ⟨k1, k2, k3, fun a b h3 h4 h5 => ?_⟩
        by_cases hab : a = x ∧ b = y
        · rw [hab.1, hab.2, ← hz]; exact not_lt.1 hlt
        · exact k4 a b h3 (by omega) h5
    · rintro s ⟨k1, k2, k3, k4⟩
      exact ⟨k1, k2, k3, fun a b h3 h4 h5 h6 => k4 a b h3 (by omega) h5⟩
  · rintro ⟨m, r, c⟩ ⟨k1, k2, k3, k4⟩
    simp only at k1 k2 k3 k4
    exact Out.pure ⟨k1, k2, fun a b h3 h4 h5 h6 => k3 ▸ k4 a b h3 h4 h5 h6⟩

theorem eliminate_run {junk : Nat → ℚ} {n i : Nat} {a : Nat → Nat → ℚ} {s : Mem2 ℚ × Mem2 ℚ} (h1 : Dim n s.1) (h2 : Dim n s.2) (hi : i < n)
    (hr : Rel n a s.1 s.2) (hl : Lower n i s.1) :
    Out Bad (eliminate junk n i s) fun s => Dim n s.1 ∧ Dim n s.2 ∧ Rel n a s.1 s.2 ∧ Lower n (i + 1) s.1 := by
  refine Out.forUpFrom (P := fun j (s : Mem2 ℚ × Mem2 ℚ) => Dim n s.1 ∧ Dim n s.2 ∧ Rel n a s.1 s.2 ∧ Lower n i s.1 ∧
    ∀ r, i < r → r < j → s.1.cell r i = 0) (by omega) ⟨h1, h2, hr, hl, fun r _ _ => by omega⟩ ?_ ?_
  · rintro j ⟨M, R⟩ hj1 hj2 ⟨g1, g2, g3, g4, g5⟩
    simp only at g1 g2 g3 g4 g5 ⊢
    rw [get1 M j i (by have := g1.1; omega) (by have := g1.2; omega), C_pure_bind,
      get1 M i i (by have := g1.1; omega) (by have := g1.2; omega), C_pure_bind]
    by_cases hp : M.cell i i = 0
    · exact .inr ⟨_, .inl rfl, by rw [fdiv, if_pos hp]; rfl⟩
    · rw [fdiv, if_neg hp, C_pure_bind, subtract_run g1 hi hj2 (by omega), C_pure_bind, subtract_run g2 hi hj2 (by omega), C_pure_bind]
      refine Out.pure ⟨g1, g2, minus_rel hi hj2 g3 fun b hb hb2 => g4 i b hi hb hb, fun r b hr hb hbr => ?_, fun r hr1 hr2 => ?_⟩
      · simp only [minus]
        rw [if_neg (by omega), g4 r b hr hb hbr]
      · simp only [minus]
        by_cases hrj : r = j
        · rw [if_pos (by omega)]
          field_simp
          ring
        · rw [if_neg (by omega), g5 r hr1 (by omega)]
  · rintro s ⟨g1, g2, g3, g4, g5⟩
    refine ⟨g1, g2, g3, fun r b hr hb hbr => ?_⟩
    by_cases hbi : b = i
    · rw [hbi]; exact g5 r (by omega) hr
    · exact g4 r b hr (by omega) hbr

theorem passI_run {junk : Nat → ℚ} {n : Nat} {a : Nat → Nat → ℚ} {s : Mem2 ℚ × Mem2 ℚ} (h1 : Dim n s.1) (h2 : Dim n s.2)
    (hr : Rel n a s.1 s.2) : Out Bad (passI junk n s) fun s => Dim n s.1 ∧ Dim n s.2 ∧ Rel n a s.1 s.2 ∧ Lower n n s.1 := by
  refine Out.forUp (P := fun i (s : Mem2 ℚ × Mem2 ℚ) => Dim n s.1 ∧ Dim n s.2 ∧ Rel n a s.1 s.2 ∧ Lower n i s.1)
    ⟨h1, h2, hr, fun _ _ _ h => absurd h (by omega)⟩ ?_ fun _ h => h
  rintro i s hi ⟨g1, g2, g3, g4⟩
  unfold stepI
  refine (mainElement_run g1 hi).bind fun rc hrc => ?_
  rw [swaps_run g1 g2 hi hrc.1.2 hrc.2.1.2, C_pure_bind]
  exact eliminate_run (swapped2_dim g1) (swapped2_dim g2) hi (swapped2_rel hi hrc.1.2 hrc.2.1.2 g3) (swapped2_lower hi hrc.1 hrc.2.1 g4)

/-- Row `i` divided by `d`. -/
def divided (n i : Nat) (d : ℚ) (A : Mem2 ℚ) : Mem2 ℚ :=
  ⟨A.rows, A.cols, fun a b => if a = i ∧ b < n then A.cell a b / d else A.cell a b⟩

theorem rowII {n i : Nat} {d : ℚ} {s : Mem2 ℚ × Mem2 ℚ} (h1 : Dim n s.1) (h2 : Dim n s.2) (hi : i < n) (hd : d ≠ 0) :
    Ok (forUp 0 n s fun k (matrix, result) => do
      let matrix ← matrix.put i k (← fdiv (← matrix.get i k) d)
      let result ← result.put i k (← fdiv (← result.get i k) d)
      pure (matrix, result)) fun r => r = (divided n i d s.1, divided n i d s.2) := by
  obtain ⟨M, R⟩ := s
  refine Ok.forUp (P := fun k r => r = (⟨M.rows, M.cols, fun a b => if a = i ∧ b < k then M.cell a b / d else M.cell a b⟩,
    ⟨R.rows, R.cols, fun a b => if a = i ∧ b < k then R.cell a b / d else R.cell a b⟩)) (Nat.zero_le _) (by simp) ?_ fun _ h => h
  rintro k r _ hk rfl
  unfold Dim at h1 h2
  simp only at h1 h2
  simp only [Ok.bind_iff, Mem2.Ok_get, Mem2.Ok_put, fdiv, if_neg hd, Ok.ok_iff, Ok.pure_iff]
  refine ⟨by omega, by omega, by omega, by omega, ?_⟩
  have : ∀ A : Mem2 ℚ, (fun x y => if x = i ∧ y = k then (if True ∧ k < k then A.cell i k / d else A.cell i k) / d else
      if x = i ∧ y < k then A.cell x y / d else A.cell x y) = fun x y => if x = i ∧ y < k + 1 then A.cell x y / d else A.cell x y := by
    intro A
    funext x y
    by_cases hxy : x = i ∧ y = k
    · rw [if_pos hxy, if_neg (by omega), if_pos (by omega), hxy.1, hxy.2]
    · rw [if_neg hxy]
      by_cases hx : x = i ∧ y < k
      · rw [if_pos hx, if_pos (by omega)]
      · rw [if_neg hx, if_neg (by omega)]
  simp only [← this]

theorem passII_run {n : Nat} {a : Nat → Nat → ℚ} {s : Mem2 ℚ × Mem2 ℚ} (h1 : Dim n s.1) (h2 : Dim n s.2) (hr : Rel n a s.1 s.2)
    (hl : Lower n n s.1) :
    Out Bad (passII n s) fun s => Dim n s.1 ∧ Dim n s.2 ∧ Rel n a s.1 s.2 ∧ Lower n n s.1 ∧ ∀ i, i < n → s.1.cell i i = 1 := by
  refine Out.forUp (P := fun i (s : Mem2 ℚ × Mem2 ℚ) => Dim n s.1 ∧ Dim n s.2 ∧ Rel n a s.1 s.2 ∧ Lower n n s.1 ∧
    ∀ r, r < i → s.1.cell r r = 1) ⟨h1, h2, hr, hl, fun _ h => absurd h (by omega)⟩ ?_ fun _ h => h
  rintro i s hi ⟨g1, g2, g3, g4, g5⟩
  have b1 := g1.1
  have b2 := g1.2
  rw [get1 s.1 i i (by omega) (by omega), C_pure_bind]
  by_cases hd : s.1.cell i i = 0
  · refine .inr ⟨.divZero, .inl rfl, ?_⟩
    obtain ⟨m, rfl⟩ := Nat.exists_eq_add_of_le' (show 1 ≤ n by omega)
    refine forUp_err ?_
    obtain ⟨M, R⟩ := s
    simp only at hd b1 b2 ⊢
    rw [get1 M i 0 (by omega) (by omega), C_pure_bind, fdiv, if_pos hd]
    rfl
  · obtain ⟨r, e, rfl⟩ := rowII g1 g2 hi hd
    refine .inl ⟨_, e, g1, g2, fun x k hx hk => ?_, fun x b hx hb hbx => ?_, fun x hx => ?_⟩
    · simp only [divided, hk, and_true]
      have : ∀ l ∈ Finset.range n, (if x = i ∧ l < n then s.2.cell x l / s.1.cell i i else s.2.cell x l) * a l k =
          if x = i then s.2.cell x l * a l k * (s.1.cell i i)⁻¹ else s.2.cell x l * a l k := fun l hl => by
        by_cases hxi : x = i
        · rw [if_pos ⟨hxi, Finset.mem_range.1 hl⟩, if_pos hxi]; ring
        · rw [if_neg (by simp [hxi]), if_neg hxi]
      rw [Finset.sum_congr rfl this]
      by_cases hxi : x = i
      · simp only [if_pos hxi]
        rw [← Finset.sum_mul, ← g3 x k hx hk, div_eq_mul_inv]
      · simp only [if_neg hxi]
        exact g3 x k hx hk
    · simp only [divided]
      rw [g4 x b hx hb hbx, zero_div, ite_self]
    · simp only [divided]
      by_cases hxi : x = i
      · rw [if_pos (by omega), hxi, div_self hd]
      · rw [if_neg (by omega), g5 x (by omega)]

/-- The matrix is the identity. -/
def Ident (n : Nat) (M : Mem2 ℚ) : Prop := ∀ i k, i < n → k < n → M.cell i k = if i = k then 1 else 0

theorem passIII_run {junk : Nat → ℚ} {n : Nat} {a : Nat → Nat → ℚ} {s : Mem2 ℚ × Mem2 ℚ} (h1 : Dim n s.1) (h2 : Dim n s.2)
    (hr : Rel n a s.1 s.2) (hl : Lower n n s.1) (hd : ∀ i, i < n → s.1.cell i i = 1) :
    Ok (passIII junk n s) fun s => Dim n s.1 ∧ Dim n s.2 ∧ Rel n a s.1 s.2 ∧ Ident n s.1 := by
  refine Ok.forDown (P := fun i (s : Mem2 ℚ × Mem2 ℚ) => Dim n s.1 ∧ Dim n s.2 ∧ Rel n a s.1 s.2 ∧ Lower n n s.1 ∧
    (∀ i, i < n → s.1.cell i i = 1) ∧ ∀ r b, i ≤ b → b < n → r < b → s.1.cell r b = 0) (Nat.zero_le _)
    ⟨h1, h2, hr, hl, hd, fun _ _ _ _ _ => by omega⟩ ?_ ?_
  · rintro i s _ hi ⟨g1, g2, g3, g4, g5, g6⟩
    refine Ok.forDown (P := fun j (s : Mem2 ℚ × Mem2 ℚ) => Dim n s.1 ∧ Dim n s.2 ∧ Rel n a s.1 s.2 ∧ Lower n n s.1 ∧
      (∀ i, i < n → s.1.cell i i = 1) ∧ (∀ r b, i + 1 ≤ b → b < n → r < b → s.1.cell r b = 0) ∧
      ∀ r, j ≤ r → r < i → s.1.cell r i = 0) (Nat.zero_le _) ⟨g1, g2, g3, g4, g5, g6, fun _ _ _ => by omega⟩ ?_ ?_
    · rintro j ⟨M, R⟩ _ hj ⟨k1, k2, k3, k4, k5, k6, k7⟩
      simp only at k1 k2 k3 k4 k5 k6 k7 ⊢
      have b1 := k1.1
      have b2 := k1.2
      rw [get1 M j i (by omega) (by omega), C_pure_bind, subtract_run k1 hi (by omega) (by omega), C_pure_bind,
        subtract_run k2 hi (by omega) (by omega), C_pure_bind, Ok.pure_iff]
      have unit : ∀ b, b < n → M.cell i b = if b = i then 1 else 0 := by
        intro b hb
        by_cases h3 : b = i
        · rw [if_pos h3, h3, k5 i hi]
        · rw [if_neg h3]
          by_cases h4 : b < i
          · exact k4 i b hi hb h4
          · exact k6 i b (by omega) hb (by omega)
      have new : ∀ r b, b < n → (minus n i j (M.cell j i) 0 M).cell r b = if r = j ∧ b = i then 0 else M.cell r b := by
        intro r b hb
        simp only [minus]
        by_cases h3 : r = j
        · rw [if_pos (by omega), unit b hb]
          by_cases h4 : b = i
          · rw [if_pos h4, if_pos (by omega), h4]; ring
          · rw [if_neg h4, if_neg (by omega), h3]; ring
        · rw [if_neg (by omega), if_neg (by omega)]
      refine ⟨k1, k2, minus_rel hi (by omega) k3 fun b hb => by omega, fun r b h3 h4 h5 => ?_, fun r h3 => ?_, fun r b h3 h4 h5 => ?_,
        fun r h3 h4 => ?_⟩
      · rw [new r b h4, k4 r b h3 h4 h5, ite_self]
      · rw [new r r h3, if_neg (by omega), k5 r h3]
      · rw [new r b h4, k6 r b h3 h4 h5, ite_self]
      · rw [new r i hi]
        by_cases h5 : r = j
        · rw [if_pos (by omega)]
        · rw [if_neg (by omega), k7 r (by omega) h4]
    · rintro s ⟨k1, k2, k3, k4, k5, k6, k7⟩
      refine ⟨k1, k2, k3, k4, k5, fun r b h3 h4 h5 => ?_⟩
      by_cases hb : b = i
      · rw [hb]; exact k7 r (Nat.zero_le _) (by omega)
      · exact k6 r b (by omega) h4 h5
  · rintro s ⟨k1, k2, k3, k4, k5, k6⟩
    refine ⟨k1, k2, k3, fun i k hi hk => ?_⟩
    by_cases h3 : i = k
    · rw [if_pos h3, h3, k5 k hk]
    · rw [if_neg h3]
      by_cases h4 : k < i
      · exact k4 i k hi hk h4
      · exact k6 i k (Nat.zero_le _) hk (by omega)

theorem init_run (junk : Nat → ℚ) (n : Nat) : Ok (initEQMatrix junk n) fun R => Dim n R ∧ Ident n R := by
  unfold initEQMatrix
  refine (fill (look := fun (m : Mem2 ℚ) i j => m.cell i j) (F := fun i j => if i = j then 1 else 0) (Good := fun m => Dim n m)
    ⟨rfl, rfl⟩ ?_)
  rintro i j m hi hj ⟨h1, h2⟩
  rw [show (if i = j then m.put i j 1 else m.put i j 0) = m.put i j (if i = j then 1 else 0) by split <;> rfl, Mem2.Ok_put]
  exact ⟨by omega, ⟨h1, h2⟩, if_pos ⟨rfl, rfl⟩, fun k l _ _ h => if_neg (by omega)⟩

theorem init_rel {n : Nat} (M : Mem2 ℚ) {R : Mem2 ℚ} (h2 : Ident n R) : Rel n (fun i j => M.cell i j) M R := by
  intro i k hi hk
  have : ∀ l ∈ Finset.range n, R.cell i l * M.cell l k = if i = l then M.cell i k else 0 := fun l hl => by
    rw [h2 i l hi (Finset.mem_range.1 hl)]
    by_cases h : i = l
    · rw [if_pos h, if_pos h, h, one_mul]
    · rw [if_neg h, if_neg h, zero_mul]
  rw [Finset.sum_congr rfl this, Finset.sum_ite_eq, if_pos (Finset.mem_range.2 hi)]

theorem reverse_run (junk : Nat → ℚ) {n : Nat} {M : Mem2 ℚ} (hM : Dim n M) :
    Out Bad (reverseMatrix junk n M) fun s => Dim n s.1 ∧ Dim n s.2 ∧ Rel n (fun i j => M.cell i j) s.1 s.2 ∧ Ident n s.1 := by
  obtain ⟨R, e, h1, h2⟩ := init_run junk n
  rw [reverseMatrix, e, C_pure_bind]
  have hr := init_rel M h2
  refine (passI_run hM h1 hr).bind fun s hs => ?_
  refine (passII_run hs.1 hs.2.1 hs.2.2.1 hs.2.2.2).bind fun s hs => ?_
  exact Out.of_Ok (passIII_run hs.1 hs.2.1 hs.2.2.1 hs.2.2.2.1 hs.2.2.2.2)

/-! ## The identity -/

theorem absInt_one : absInt 1 = .ok 1 := by
  unfold absInt
  simp

theorem absInt_zero : absInt 0 = .ok 0 := by
  unfold absInt
  simp

theorem mainElement_ident {n i : Nat} {M : Mem2 ℚ} (hM : Dim n M) (hI : Ident n M) (hi : i < n) : qMatrixMainElementLQ n M i = .ok (i, i) := by
  obtain ⟨h1, h2⟩ := hM
  refine Ok.eq.1 ?_
  unfold qMatrixMainElementLQ
  rw [get1 M i i (by omega) (by omega), C_pure_bind, hI i i hi hi, if_pos rfl, absInt_one, C_pure_bind, Ok.bind_iff]
  refine Ok.forUp (P := fun _ s => s = ((1 : ℚ), i, i)) (by omega) rfl ?_ ?_
  · rintro x s hx1 hx2 rfl
    refine Ok.forUp (P := fun _ s => s = ((1 : ℚ), i, i)) (by omega) rfl ?_ fun _ h => h
    rintro y s hy1 hy2 rfl
    simp only
    rw [get1 M x y (by omega) (by omega), C_pure_bind, hI x y hx2 hy2]
    by_cases hxy : x = y
    · rw [if_pos hxy, absInt_one, C_pure_bind, if_neg (by norm_num), Ok.pure_iff]
    · rw [if_neg hxy, absInt_zero, C_pure_bind, if_neg (by norm_num), Ok.pure_iff]
  · rintro s rfl
    simp

theorem passI_ident {junk : Nat → ℚ} {n : Nat} {s : Mem2 ℚ × Mem2 ℚ} (h1 : Dim n s.1) (h2 : Dim n s.2) (hI : Ident n s.1) :
    Ok (passI junk n s) fun s => Dim n s.1 ∧ Dim n s.2 ∧ Ident n s.1 := by
  refine Ok.forUp (P := fun _ (s : Mem2 ℚ × Mem2 ℚ) => Dim n s.1 ∧ Dim n s.2 ∧ Ident n s.1) (Nat.zero_le _) ⟨h1, h2, hI⟩ ?_ fun _ h => h
  rintro i s _ hi ⟨g1, g2, g3⟩
  rw [stepI, mainElement_ident g1 g3 hi, C_pure_bind, swaps_run g1 g2 hi hi hi, C_pure_bind]
  simp only [swapped2, ne_eq, not_true_eq_false, if_false]
  refine Ok.forUp (P := fun _ (s : Mem2 ℚ × Mem2 ℚ) => Dim n s.1 ∧ Dim n s.2 ∧ Ident n s.1) (by omega) ⟨g1, g2, g3⟩ ?_ fun _ h => h
  rintro j ⟨M, R⟩ hj1 hj2 ⟨k1, k2, k3⟩
  simp only at k1 k2 k3 ⊢
  have b1 := k1.1
  have b2 := k1.2
  rw [get1 M j i (by omega) (by omega), C_pure_bind, get1 M i i (by omega) (by omega), C_pure_bind, k3 j i hj2 hi, k3 i i hi hi,
    if_pos rfl, if_neg (by omega), fdiv, if_neg one_ne_zero, C_pure_bind, subtract_run k1 hi hj2 (by omega), C_pure_bind,
    subtract_run k2 hi hj2 (by omega), C_pure_bind, Ok.pure_iff]
  refine ⟨k1, k2, fun x y hx hy => ?_⟩
  simp only [minus]
  by_cases hc : x = j ∧ i ≤ y ∧ y < n
  · rw [if_pos hc, ← hc.1, k3 x y hx hy]; ring
  · rw [if_neg hc, k3 x y hx hy]

theorem passII_ident {n : Nat} {s : Mem2 ℚ × Mem2 ℚ} (h1 : Dim n s.1) (h2 : Dim n s.2) (hI : Ident n s.1) :
    Ok (passII n s) fun s => Dim n s.1 ∧ Dim n s.2 ∧ Ident n s.1 := by
  refine Ok.forUp (P := fun _ (s : Mem2 ℚ × Mem2 ℚ) => Dim n s.1 ∧ Dim n s.2 ∧ Ident n s.1) (Nat.zero_le _) ⟨h1, h2, hI⟩ ?_ fun _ h => h
  rintro i s _ hi ⟨g1, g2, g3⟩
  have b1 := g1.1
  have b2 := g1.2
  rw [get1 s.1 i i (by omega) (by omega), C_pure_bind, g3 i i hi hi, if_pos rfl]
  refine (rowII g1 g2 hi one_ne_zero).mono ?_
  rintro r rfl
  refine ⟨g1, g2, fun x y hx hy => ?_⟩
  simp only [divided, div_one, ite_self]
  exact g3 x y hx hy

theorem reverse_ident (junk : Nat → ℚ) {n : Nat} {M : Mem2 ℚ} (hM : Dim n M) (hI : Ident n M) : ∃ s, reverseMatrix junk n M = .ok s := by
  obtain ⟨R, e, h1, h2⟩ := init_run junk n
  obtain ⟨s1, e1, g1, g2, g3⟩ := passI_ident (junk := junk) (s := (M, R)) hM h1 hI
  obtain ⟨s2, e2, k1, k2, k3⟩ := passII_ident g1 g2 g3
  have hM' := init_rel M h2
  have p1 := (passI_run (junk := junk) (s := (M, R)) hM h1 hM').of_ok e1
  have p2 := (passII_run p1.1 p1.2.1 p1.2.2.1 p1.2.2.2).of_ok e2
  obtain ⟨s3, e3, _⟩ := passIII_run (junk := junk) p2.1 p2.2.1 p2.2.2.1 p2.2.2.2.1 p2.2.2.2.2
  refine ⟨s3, ?_⟩
  rw [reverseMatrix, e, C_pure_bind, e1, C_pure_bind, e2, C_pure_bind, e3]

/-! ## A zero pivot -/

theorem mainElement_congr {n i : Nat} {A B : Mem2 ℚ} (hA : Dim n A) (hB : Dim n B) (hi : i < n)
    (h : ∀ x y, x < n → y < n → A.cell x y = B.cell x y) : qMatrixMainElementLQ n A i = qMatrixMainElementLQ n B i := by
  have hg : ∀ x y, x < n → y < n → A.get x y = B.get x y := fun x y hx hy => by
    have := hA.1; have := hA.2; have := hB.1; have := hB.2
    rw [get1 A x y (by omega) (by omega), get1 B x y (by omega) (by omega), h x y hx hy]
  unfold qMatrixMainElementLQ
  rw [hg i i hi hi]
  refine congrArg _ (funext fun m => ?_)
  refine congrArg _ (funext fun e => ?_)
  congr 1
  refine forUp_congr _ fun x s hx1 hx2 => forUp_congr _ fun y s hy1 hy2 => ?_
  simp only [hg x y hx2 hy2]

theorem eliminate_zero {junk : Nat → ℚ} {n i : Nat} {s : Mem2 ℚ × Mem2 ℚ} (h1 : Dim n s.1) (hi : i + 1 < n) (hp : s.1.cell i i = 0) :
    eliminate junk n i s = .error .divZero := by
  obtain ⟨M, R⟩ := s
  have b1 := h1.1
  have b2 := h1.2
  simp only at b1 b2 hp
  obtain ⟨m, rfl⟩ : ∃ m, n = i + 1 + (m + 1) := ⟨n - i - 2, by omega⟩
  show (List.range' (i + 1) (i + 1 + (m + 1) - (i + 1))).foldlM _ _ = _
  rw [show i + 1 + (m + 1) - (i + 1) = m + 1 by omega, List.range'_succ, List.foldlM_cons]
  simp only
  rw [get1 M (i + 1) i (by omega) (by omega), C_pure_bind, get1 M i i (by omega) (by omega), C_pure_bind, fdiv, if_pos hp]
  rfl

end WB.cmp.github7
