import Verif.Proof.ElimAll
import Mathlib.LinearAlgebra.Matrix.ToLinearEquiv

/-!
# Fast checks of explicit matrices over GF(2)

A row is a natural number; column `j` of a row of `n` columns is bit `n - 1 - j`.
-/
namespace WB
open Matrix

/-- The combination of the rows `bs` selected by the bits of `a`.  Written with the recursors and
the primitive operations on numbers so that the kernel evaluates it quickly; `Nat.rec` forces
the value of `a`. -/
noncomputable def comb (bs : List Nat) : Nat → Nat :=
  @List.rec Nat (fun _ => Nat → Nat) (fun _ => 0)
    (fun b _ ih a => @Nat.rec (fun _ => Nat) 0
      (fun m _ => Nat.xor (Nat.mul (Nat.mod (Nat.succ m) 2) b) (ih (Nat.div (Nat.succ m) 2))) a) bs

theorem comb_nil (a : Nat) : comb [] a = 0 := rfl

theorem comb_zero (bs : List Nat) : comb bs 0 = 0 := by cases bs <;> rfl

theorem comb_cons (b : Nat) (bs : List Nat) (a : Nat) :
    comb (b :: bs) a = (a % 2 * b) ^^^ comb bs (a / 2) := by
  cases a with
  | zero => simp [comb_zero]
  | succ a => rfl

theorem bitF_mul2 (a b t : Nat) :
    bitF ((a % 2 * b).testBit t) = bitF (a.testBit 0) * bitF (b.testBit t) := by
  rw [Nat.testBit_zero]
  rcases Nat.mod_two_eq_zero_or_one a with h | h <;> simp [h, bitF]

theorem comb_spec (bs : List Nat) (a t : Nat) : bitF ((comb bs a).testBit t) =
    ∑ k : Fin bs.length, bitF (a.testBit k) * bitF (bs[k].testBit t) := by
  induction bs generalizing a with
  | nil => simp [comb_nil, bitF]
  | cons b bs ih =>
    rw [comb_cons, Nat.testBit_xor, bitF_xor, ih, bitF_mul2]
    have : ∀ k : Fin bs.length, (a / 2).testBit k = a.testBit (k + 1) := by
      intro k; rw [Nat.testBit_add_one]
    simp only [this]
    exact (Fin.sum_univ_succ fun k : Fin (bs.length + 1) =>
      bitF (a.testBit k) * bitF ((b :: bs)[k.val].testBit t)).symm

/-- `A` has the rows `a`. -/
def RowsAre {n : Nat} (A : Mat n) (a : Nat → Nat) : Prop :=
  ∀ i j : Fin n, A i j = bitF ((a i.val).testBit (n - 1 - j.val))

/-- Column `k` of a row selects row `k` of the other matrix, which stands at position
`n - 1 - k` of the list. -/
theorem comb_mul {n : Nat} {B : Mat n} {b : Nat → Nat} {bs : List Nat} (hB : RowsAre B b)
    (hbs : bs = ((List.range n).map b).reverse) (x : Fin n → ZMod 2) (a : Nat)
    (hx : ∀ k : Fin n, x k = bitF (a.testBit (n - 1 - k.val))) (j : Fin n) :
    (x ᵥ* B) j = bitF ((comb bs a).testBit (n - 1 - j.val)) := by
  have hl : bs.length = n := by simp [hbs]
  rw [comb_spec]
  simp only [Matrix.vecMul, dotProduct]
  refine Fintype.sum_equiv ((Fin.revPerm).trans (finCongr hl.symm)) _ _ ?_
  intro k
  rw [hx, hB]
  have e : bs[(((Fin.revPerm).trans (finCongr hl.symm)) k : Fin bs.length)] = b k := by
    subst hbs
    simp [Fin.revPerm]
    congr 1
    have := k.2
    omega
  rw [e]
  congr 3
  simp [Fin.revPerm]
  omega

/-- The check that `a` and `b` are the rows of inverse matrices. -/
noncomputable def checkInv (n : Nat) (a : Nat → Nat) (bs : List Nat) : Bool :=
  @Nat.rec (fun _ => Bool) true
    (fun i ih => Bool.and (Nat.beq (comb bs (a i)) (Nat.pow 2 (Nat.sub (Nat.sub n 1) i))) ih) n

theorem checkInv_rows {n : Nat} {a : Nat → Nat} {bs : List Nat} (m : Nat)
    (h : @Nat.rec (fun _ => Bool) true
      (fun i ih => Bool.and (Nat.beq (comb bs (a i)) (Nat.pow 2 (Nat.sub (Nat.sub n 1) i))) ih) m = true) :
    ∀ i < m, comb bs (a i) = 2 ^ (n - 1 - i) := by
  induction m with
  | zero => intro i hi; omega
  | succ m ih =>
    have h' := Bool.and_eq_true_iff.1 h
    intro i hi
    rcases Nat.lt_succ_iff_lt_or_eq.1 hi with h1 | rfl
    · exact ih h'.2 i h1
    · exact Nat.eq_of_beq_eq_true h'.1

theorem checkInv_ok {n : Nat} {A B : Mat n} {a b : Nat → Nat} {bs : List Nat} (hA : RowsAre A a)
    (hB : RowsAre B b) (hbs : bs = ((List.range n).map b).reverse)
    (h : checkInv n a bs = true) : A * B = 1 := by
  have hc := checkInv_rows n h
  ext i j
  have h1 : (A * B) i j = (A i ᵥ* B) j := rfl
  rw [h1, comb_mul hB hbs (A i) (a i) (fun k => hA i k), hc i i.2, Nat.testBit_two_pow,
    Matrix.one_apply]
  have := i.2; have := j.2
  by_cases hij : i = j
  · subst hij; simp [bitF]
  · rw [if_neg hij]
    have : ¬ n - 1 - i.val = n - 1 - j.val := by
      intro e; exact hij (Fin.ext (by omega))
    simp [bitF, this]

/-- The check that the combination `x` of the rows vanishes. -/
theorem checkNull_ok {n : Nat} {B : Mat n} {b : Nat → Nat} {bs : List Nat} (hB : RowsAre B b)
    (hbs : bs = ((List.range n).map b).reverse) (x k : Nat) (hk : k < n)
    (hx : x.testBit k = true) (h : comb bs x % 2 ^ n = 0) : B.det = 0 := by
  have h0 : (fun k : Fin n => bitF (x.testBit (n - 1 - k.val))) ᵥ* B = 0 := by
    funext j
    rw [comb_mul hB hbs _ x (fun _ => rfl)]
    have hj : n - 1 - j.val < n := by have := j.2; omega
    have := Nat.testBit_mod_two_pow (comb bs x) n (n - 1 - j.val)
    rw [h] at this
    simp [hj] at this
    simp [← this, bitF]
  refine (Matrix.exists_vecMul_eq_zero_iff).1 ⟨_, ?_, h0⟩
  intro e
  have := congrFun e ⟨n - 1 - k, by omega⟩
  simp [show n - 1 - (n - 1 - k) = k by omega, hx, bitF] at this

end WB
