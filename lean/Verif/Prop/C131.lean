import Verif.Proof.M4riDensity
import Verif.Proof.M4riPack
import Mathlib.Data.Rat.Defs
import Mathlib.Algebra.Order.Field.Rat
import Mathlib.Tactic.Positivity

/-!
# C131 — the density of matrices of M4RI (`/repo/test/github1_M4RI/src/m4ri/mzd.c`, `mzd_density` and `m4ri_bitcount`)
-/
namespace WB.m4w

open WB.cmp (Mem Mem2)
open Finset

variable {m n : Nat} {M : Mzd} {A : Matrix (Fin m) (Fin n) (ZMod 2)}

/-- The number of ones in the first `k` columns. -/
def onesIn (A : Matrix (Fin m) (Fin n) (ZMod 2)) (k : Nat) : Nat := (univ.filter fun p : Fin m × Fin n => A p.1 p.2 ≠ 0 ∧ (p.2 : Nat) < k).card

/-- C131, full statement: `mzd_density(A, 1)`, which is to use every word, returns the number of ones divided by the number of entries. -/
def C131_statement : Prop := ∀ {m n : Nat} {M : Mzd} {A : Matrix (Fin m) (Fin n) (ZMod 2)}, Rep M A → 0 < m → 0 < n →
  ∃ count total, mzd_density M 1 = .ok (count, total) ∧ 0 < total ∧ (count : ℚ) / total = (onesIn A n : ℚ) / (m * n)

/-- C131: `m4ri_bitcount` counts the ones of a word. -/
theorem C131_bitcount (x : Word) : m4ri_bitcount x = ((range 64).filter fun i => x.getLsbD i = true).card := by
  rw [bitcount_eq, card_filter]
  unfold weight
  refine sum_congr rfl fun i _ => ?_
  cases x.getLsbD i <;> rfl

theorem rowOnes_sum (hM : Rep M A) {k : Nat} (hk : k ≤ n) : ∑ i ∈ range M.nrows, rowOnes M i k = onesIn A k := by
  have h : ∀ i : Fin m, rowOnes M i k = ∑ j : Fin n, if A i j ≠ 0 ∧ (j : Nat) < k then 1 else 0 := by
    intro i
    unfold rowOnes
    have e : range k = (range n).filter (· < k) := by ext j; simp; omega
    rw [e, sum_filter, sum_range]
    refine sum_congr rfl fun j _ => ?_
    rw [← hM.bit i j]
    by_cases g : (j : Nat) < k
    · cases M.bit i j
      · rw [if_pos g, if_neg (fun h => h.1 rfl)]; rfl
      · rw [if_pos g, if_pos ⟨by decide, g⟩]; rfl
    · rw [if_neg g, if_neg (fun h => g h.2)]
  unfold onesIn
  rw [card_filter, Fintype.sum_prod_type, hM.nrows, sum_range]
  exact sum_congr rfl fun i _ => h i

/-- C131, what holds: unless the number of columns is a multiple of 64 above 64, the ones are counted and divided by the number of entries, also with 0 for 100 samples when there are less than 200
words in a row. -/
theorem C131_density_partial (hM : Rep M A) (h0 : 0 < n) (hn : n % 64 ≠ 0 ∨ n = 64) {res : Nat} (hr : res = 1 ∨ res = 0 ∧ (n + 63) / 64 < 200) :
    mzd_density M res = .ok (onesIn A n, m * n) := by
  have hc : (if M.ncols = 64 then 64 else covered M.ncols) = n := by
    rw [hM.ncols]
    unfold covered
    split_ifs <;> omega
  rw [density_spec hM.wf (by rw [hM.ncols]; exact h0) (hr.imp id fun h => ⟨h.1, by unfold Mzd.width; rw [hM.ncols]; exact h.2⟩), hc, rowOnes_sum hM (le_refl n), hM.nrows]

/-- C131, what goes wrong: when the number of columns is a multiple of 64 above 64, the last 64 columns are ignored. -/
theorem C131_last_word_violated (hM : Rep M A) (h1 : 64 < n) (hn : n % 64 = 0) {res : Nat} (hr : res = 1 ∨ res = 0 ∧ (n + 63) / 64 < 200) :
    mzd_density M res = .ok (onesIn A (n - 64), m * (n - 64)) := by
  have hc : (if M.ncols = 64 then 64 else covered M.ncols) = n - 64 := by
    rw [hM.ncols]
    unfold covered
    split_ifs <;> omega
  rw [density_spec hM.wf (by rw [hM.ncols]; omega) (hr.imp id fun h => ⟨h.1, by unfold Mzd.width; rw [hM.ncols]; exact h.2⟩), hc, rowOnes_sum hM (by omega), hM.nrows]

/-- C131: without rows 0 is divided by 0. -/
theorem C131_no_rows {A : Matrix (Fin 0) (Fin n) (ZMod 2)} (hM : Rep M A) (res : Nat) : mzd_density M res = .ok (0, 0) := by
  unfold mzd_density _mzd_density
  rw [hM.nrows]
  split
  · rfl
  · rfl

/-- One row of 128 columns; the last 64 are ones. -/
def exHalf : Mzd := ⟨1, 128, 0, ⟨1, 2, fun _ j => if j = 1 then 0xffffffffffffffff#64 else 0#64⟩⟩

theorem exHalf_rep : Rep exHalf (blk exHalf 0 0 1 128) := rep_blk ⟨by decide, by decide⟩

/-- C131: the full statement is false. -/
theorem C131_violated : ¬ C131_statement := by
  intro h
  obtain ⟨count, total, e, ht, hq⟩ := h exHalf_rep (by decide) (by decide)
  have e' : mzd_density exHalf 1 = .ok (0, 64) := by with_unfolding_all rfl
  rw [e'] at e
  obtain ⟨rfl, rfl⟩ := Prod.mk.inj (Except.ok.inj e)
  have h1 : (0 : Nat) < onesIn (blk exHalf 0 0 1 128) 128 := by
    unfold onesIn
    rw [card_pos]
    refine ⟨(0, 127), ?_⟩
    rw [mem_filter]
    refine ⟨mem_univ _, ?_, by decide⟩
    show bitF (exHalf.bit (0 + 0) (0 + 127)) ≠ 0
    rw [show exHalf.bit (0 + 0) (0 + 127) = true by decide]
    decide
  have h2 : (0 : ℚ) < (onesIn (blk exHalf 0 0 1 128) 128 : ℚ) := by exact_mod_cast h1
  have h3 : (0 : ℚ) < (onesIn (blk exHalf 0 0 1 128) 128 : ℚ) / ((1 : Nat) * (128 : Nat)) := by positivity
  rw [← hq] at h3
  simp at h3

/-- Half of the entries are ones and the density is 0 / 64. -/
example : mzd_density exHalf 1 = .ok (0, 64) := by with_unfolding_all rfl

/-- With 127 columns it is 63 / 127. -/
example : mzd_density ⟨1, 127, 0, exHalf.mem⟩ 1 = .ok (63, 127) := by with_unfolding_all rfl

/-- The theorems apply to both. -/
example : mzd_density exHalf 0 = .ok (onesIn (blk exHalf 0 0 1 128) 64, 1 * 64) ∧
    mzd_density ⟨1, 127, 0, exHalf.mem⟩ 0 = .ok (onesIn (blk ⟨1, 127, 0, exHalf.mem⟩ 0 0 1 127) 127, 1 * 127) :=
  ⟨C131_last_word_violated exHalf_rep (by decide) (by decide) (.inr ⟨rfl, by decide⟩),
    C131_density_partial (rep_blk ⟨by decide, by decide⟩) (by decide) (.inl (by decide)) (.inr ⟨rfl, by decide⟩)⟩

end WB.m4w
