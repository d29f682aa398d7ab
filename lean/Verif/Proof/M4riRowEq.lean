import Verif.Proof.M4riProd
import Verif.Proof.M4riRow

/-!
# Row equivalence of matrices of bits (helper lemmas)
-/
namespace WB.m4w

/-- The matrix with the bits `f i j`. -/
def bmat (n m : Nat) (f : Nat → Nat → Bool) : Matrix (Fin n) (Fin m) (ZMod 2) := Matrix.of fun i j => bitF (f i j)

/-- The matrix `g` is obtained from `f` by multiplication with an invertible matrix from the left. -/
def RowEq (n m : Nat) (f g : Nat → Nat → Bool) : Prop := ∃ P : Matrix (Fin n) (Fin n) (ZMod 2), IsUnit P ∧ bmat n m g = P * bmat n m f

theorem bmat_congr {n m : Nat} {f g : Nat → Nat → Bool} (h : ∀ i < n, ∀ j < m, f i j = g i j) : bmat n m f = bmat n m g := by
  ext i j
  show bitF _ = bitF _
  rw [h i i.2 j j.2]

theorem RowEq.refl (n m : Nat) (f : Nat → Nat → Bool) : RowEq n m f f := ⟨1, isUnit_one, (Matrix.one_mul _).symm⟩

theorem RowEq.trans {n m : Nat} {f g h : Nat → Nat → Bool} (h1 : RowEq n m f g) (h2 : RowEq n m g h) : RowEq n m f h := by
  obtain ⟨P, hP, e⟩ := h1
  obtain ⟨Q, hQ, e'⟩ := h2
  exact ⟨Q * P, hQ.mul hP, by rw [e', e, Matrix.mul_assoc]⟩

theorem RowEq.of_eq {n m : Nat} {f g : Nat → Nat → Bool} (h : ∀ i < n, ∀ j < m, g i j = f i j) : RowEq n m f g :=
  ⟨1, isUnit_one, by rw [Matrix.one_mul]; exact bmat_congr h⟩

/-- Sums of some rows are added to other rows. -/
theorem RowEq.comb {n m : Nat} {f g : Nat → Nat → Bool} (e : Nat → Nat → Bool) (he : ∀ i < n, ∀ l < n, e i l = true → ∀ k < n, e l k = false)
    (h : ∀ i < n, ∀ j < m, g i j = (f i j ^^ xsum n fun l => e i l && f l j)) : RowEq n m f g := by
  have hE : bmat n n e * bmat n n e = 0 := by
    ext i k
    rw [Matrix.mul_apply]
    refine Finset.sum_eq_zero fun l _ => ?_
    show bitF (e i l) * bitF (e l k) = 0
    cases hil : e i l
    · rw [bitF_false, zero_mul]
    · rw [he i i.2 l l.2 hil k k.2, bitF_false, mul_zero]
  have hP : (1 + bmat n n e) * (1 + bmat n n e) = 1 := by
    rw [Matrix.mul_add, Matrix.add_mul, Matrix.add_mul, hE, Matrix.one_mul, Matrix.one_mul, Matrix.mul_one, add_zero, add_assoc]
    have : bmat n n e + bmat n n e = 0 := by
      ext i k
      show bitF _ + bitF _ = 0
      cases e i k <;> decide
    rw [this, add_zero]
  refine ⟨1 + bmat n n e, ⟨⟨_, _, hP, hP⟩, rfl⟩, ?_⟩
  rw [Matrix.add_mul, Matrix.one_mul]
  ext i j
  rw [Matrix.add_apply, Matrix.mul_apply]
  show bitF (g i j) = bitF (f i j) + ∑ l : Fin n, bitF (e i l) * bitF (f l j)
  rw [h i i.2 j j.2, bitF_xor, bitF_xsum]
  congr 1
  exact Finset.sum_congr rfl fun l _ => bitF_and _ _

theorem RowEq.add {n m : Nat} {f : Nat → Nat → Bool} {dst src off N : Nat} (hs : src < n) (hne : dst ≠ src) (hm : m ≤ N)
    (hz : ∀ j < off, f src j = false) : RowEq n m f (addBit f dst src off N) := by
  refine RowEq.comb (fun i l => decide (i = dst ∧ l = src)) ?_ ?_
  · intro i _ l _ h k _
    rw [decide_eq_true_eq] at h
    exact decide_eq_false (by omega)
  · intro i _ j hj
    have e : xsum n (fun l => decide (i = dst ∧ l = src) && f l j) = (decide (i = dst) && f src j) := by
      rw [xsum_congr (g := fun l => decide (i = dst) && (decide (l = src) && f l j)) fun l _ => by rw [Bool.decide_and, Bool.and_assoc], xsum_and, xsum_one hs]
    rw [e]
    unfold addBit
    by_cases hi : i = dst
    · rw [decide_eq_true hi, Bool.true_and, hi]
      by_cases ho : off ≤ j
      · rw [if_pos ⟨rfl, ho, by omega⟩]
      · rw [if_neg (by omega), hz j (by omega), Bool.xor_false]
    · rw [decide_eq_false hi, if_neg (by omega)]
      simp

theorem RowEq.swap {n m : Nat} {f : Nat → Nat → Bool} {p q N : Nat} (hp : p < n) (hq : q < n) (hm : m ≤ N) : RowEq n m f (swapBit f p q N) := by
  let σ : Equiv.Perm (Fin n) := Equiv.swap ⟨p, hp⟩ ⟨q, hq⟩
  have hS : ∀ {k : Nat} (M : Matrix (Fin n) (Fin k) (ZMod 2)), (1 : Matrix (Fin n) (Fin n) (ZMod 2)).submatrix σ id * M = M.submatrix σ id := by
    intro k M
    ext i j
    simp [Matrix.mul_apply, Matrix.one_apply]
  have hSS : (1 : Matrix (Fin n) (Fin n) (ZMod 2)).submatrix σ id * (1 : Matrix (Fin n) (Fin n) (ZMod 2)).submatrix σ id = 1 := by
    rw [hS]
    ext i j
    show (1 : Matrix (Fin n) (Fin n) (ZMod 2)) (σ (σ i)) j = _
    rw [show σ (σ i) = i by simp [σ]]
  refine ⟨(1 : Matrix (Fin n) (Fin n) (ZMod 2)).submatrix σ id, ⟨⟨_, _, hSS, hSS⟩, rfl⟩, ?_⟩
  rw [hS]
  ext i j
  show bitF (swapBit f p q N i j) = bitF (f (σ i) j)
  congr 1
  unfold swapBit
  rw [if_pos (by omega)]
  simp only [σ, Equiv.swap_apply_def, Fin.ext_iff]
  split
  · rfl
  · split <;> rfl

end WB.m4w
