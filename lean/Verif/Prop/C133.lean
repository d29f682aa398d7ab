import Verif.Proof.M4riBits
import Verif.Proof.M4riPack

/-!
# C133 — the hash of matrices of M4RI (`/repo/test/github1_M4RI/include/m4ri/mzd.h`, `mzd_hash`)
-/
namespace WB.m4w

open Finset

variable {m n : Nat} {M N : Mzd} {A : Matrix (Fin m) (Fin n) (ZMod 2)}

/-- C133, full statement: `mzd_hash` returns a value for every matrix, and the same for matrices with the same entries. -/
def C133_statement : Prop := ∀ {m n : Nat} {M N : Mzd} {A : Matrix (Fin m) (Fin n) (ZMod 2)}, Rep M A → Rep N A → ∃ h, mzd_hash M = .ok h ∧ mzd_hash N = .ok h

/-- The word `v` is the sum of the words of row `i`: bit `b` is the sum of the entries in the columns `b`, `b + 64`, `b + 128`, … -/
def RowSum (A : Matrix (Fin m) (Fin n) (ZMod 2)) (i : Fin m) (v : Word) : Prop := ∀ b < 64, bitF (v.getLsbD b) = ∑ j : Fin n, if (j : Nat) % 64 = b then A i j else 0

theorem bit_clean (hM : Rep M A) (c : M.Clean) (i : Fin m) {b : Nat} (hb : b < 64 * M.width) : bitF (M.bit i b) = if h : b < n then A i ⟨b, h⟩ else 0 := by
  by_cases h : b < n
  · rw [dif_pos h, ← hM.bit i ⟨b, h⟩]
  · rw [dif_neg h, c i (by rw [hM.nrows]; exact i.2) b (by rw [hM.ncols]; omega) hb]; rfl

theorem word_clean (hM : Rep M A) (cM : M.Clean) (hN : Rep N A) (cN : N.Clean) (i : Fin m) {j : Nat} (hj : j < M.width) : M.word i j = N.word i j := by
  have hw : N.width = M.width := by unfold Mzd.width; rw [hM.ncols, hN.ncols]
  refine BitVec.eq_of_getLsbD_eq fun b hb => ?_
  have inj : ∀ x y : Bool, bitF x = bitF y → x = y := by decide
  have e : ∀ K : Mzd, (K.word i j).getLsbD b = K.bit i (64 * j + b) := fun K => by
    unfold Mzd.bit; rw [show (64 * j + b) / 64 = j by omega, show (64 * j + b) % 64 = b by omega]
  rw [e, e]
  exact inj _ _ ((bit_clean hM cM i (by omega)).trans (bit_clean hN cN i (by omega)).symm)

/-- C133, what holds: matrices with the same entries and with zeros behind the last column have the same hash, or both have none. -/
theorem C133_same_partial (hM : Rep M A) (cM : M.Clean) (hN : Rep N A) (cN : N.Clean) : mzd_hash M = mzd_hash N := by
  have hw : N.width = M.width := by unfold Mzd.width; rw [hM.ncols, hN.ncols]
  rw [hash_eq hM.wf, hash_eq hN.wf, hM.nrows, hN.nrows]
  refine forUp_congr _ fun i s _ hi => ?_
  rw [hw, wordSum_congr M.width fun j hj => word_clean hM cM hN cN ⟨i, hi⟩ hj]

theorem rowSum_wordSum (hM : Rep M A) (c : M.Clean) (i : Fin m) : RowSum A i (wordSum M i M.width) := by
  intro b hb
  rw [wordSum_bit _ _ hb]
  have hw : M.width = (n + 63) / 64 := by unfold Mzd.width; rw [hM.ncols]
  have h1 : ∀ j ∈ range M.width, bitF (M.bit i (64 * j + b)) = if h : 64 * j + b < n then A i ⟨64 * j + b, h⟩ else 0 := fun j hj => bit_clean hM c i (by have := mem_range.1 hj; omega)
  rw [sum_congr rfl h1]
  let g : Nat → ZMod 2 := fun t => if h : t < n then A i ⟨t, h⟩ else 0
  have h2 : (∑ j : Fin n, if (j : Nat) % 64 = b then A i j else 0) = ∑ t ∈ (range n).filter (fun t => t % 64 = b), g t := by
    rw [sum_filter, sum_range]
    refine sum_congr rfl fun j _ => ?_
    show _ = if (j : Nat) % 64 = b then g j else 0
    rw [show g j = A i j from dif_pos j.2]
  rw [h2]
  have h3 : ∑ t ∈ (range n).filter (fun t => t % 64 = b), g t = ∑ t ∈ (range (64 * M.width)).filter (fun t => t % 64 = b), g t := by
    refine sum_subset (fun t ht => ?_) (fun t ht hn => ?_)
    · rw [mem_filter, mem_range] at ht ⊢; omega
    · rw [mem_filter, mem_range] at ht hn
      exact dif_neg (by omega)
  rw [h3]
  refine sum_bij (fun j _ => 64 * j + b) (fun j hj => ?_) (fun j _ k _ h => ?_) (fun t ht => ?_) (fun j _ => rfl)
  · rw [mem_range] at hj; rw [mem_filter, mem_range]; omega
  · show j = k; have : 64 * j + b = 64 * k + b := h; omega
  · rw [mem_filter, mem_range] at ht; exact ⟨t / 64, mem_range.2 (by omega), by show 64 * (t / 64) + b = t; omega⟩

theorem rowSum_unique {i : Fin m} {u v : Word} (hu : RowSum A i u) (hv : RowSum A i v) : u = v := by
  have inj : ∀ x y : Bool, bitF x = bitF y → x = y := by decide
  exact BitVec.eq_of_getLsbD_eq fun b hb => inj _ _ ((hu b hb).trans (hv b hb).symm)

/-- C133, when there is a hash: exactly if the sum of the words of each row is a number from 1 to 64. -/
theorem C133_defined (hM : Rep M A) (c : M.Clean) : (∃ h, mzd_hash M = .ok h) ↔ ∀ i, ∃ v, RowSum A i v ∧ 1 ≤ v.toNat ∧ v.toNat ≤ 64 := by
  constructor
  · intro ⟨h, e⟩
    by_contra g
    rw [(hash_cases hM.wf).2 fun h0 => g fun i => ⟨_, rowSum_wordSum hM c i, h0 i (by rw [hM.nrows]; exact i.2)⟩] at e
    exact absurd e (by simp)
  · intro h
    refine (hash_cases hM.wf).1 fun i hi => ?_
    rw [hM.nrows] at hi
    obtain ⟨v, hv, h1⟩ := h ⟨i, hi⟩
    rw [rowSum_unique (rowSum_wordSum hM c ⟨i, hi⟩) hv]
    exact h1

/-- C133, what goes wrong: in all other cases a word is shifted by 64 or more bits. -/
theorem C133_undefined_violated (hM : Rep M A) (c : M.Clean) (i : Fin m) {v : Word} (hv : RowSum A i v) (h : ¬ (1 ≤ v.toNat ∧ v.toNat ≤ 64)) : mzd_hash M = .error .overflow :=
  (hash_cases hM.wf).2 fun h0 => h (by rw [← rowSum_unique (rowSum_wordSum hM c i) hv]; exact h0 i (by rw [hM.nrows]; exact i.2))

/-- C133, what goes wrong: so it is for every matrix with a row of zeros. -/
theorem C133_zero_row_violated (hM : Rep M A) (c : M.Clean) {i : Fin m} (h : ∀ j, A i j = 0) : mzd_hash M = .error .overflow := by
  refine C133_undefined_violated hM c i (v := 0#64) (fun b _ => ?_) (by decide)
  rw [sum_eq_zero fun j _ => by rw [h j]; exact ite_self 0, BitVec.getLsbD_zero]
  rfl

/-- One row and one column, a one; behind it the bits `x`. -/
def exHashed (x : Word) : Mzd := ⟨1, 1, 0, ⟨1, 1, fun _ _ => (x <<< 1) ||| 1#64⟩⟩

/-- C133, what goes wrong: the bits behind the last column, as windows have them, matter. -/
theorem C133_window_violated : Rep (exHashed 0) (1 : Matrix (Fin 1) (Fin 1) (ZMod 2)) ∧ Rep (exHashed 1) (1 : Matrix (Fin 1) (Fin 1) (ZMod 2)) ∧
    mzd_hash (exHashed 0) = .ok 1#64 ∧ mzd_hash (exHashed 1) = .ok 3#64 := by
  refine ⟨⟨⟨Nat.le_refl 1, by decide⟩, rfl, rfl, ?_⟩, ⟨⟨Nat.le_refl 1, by decide⟩, rfl, rfl, ?_⟩, ?_, ?_⟩
  · intro i j; obtain rfl := Subsingleton.elim i 0; obtain rfl := Subsingleton.elim j 0; decide
  · intro i j; obtain rfl := Subsingleton.elim i 0; obtain rfl := Subsingleton.elim j 0; decide
  · with_unfolding_all rfl
  · with_unfolding_all rfl

/-- C133: the full statement is false. -/
theorem C133_violated : ¬ C133_statement := by
  intro h
  obtain ⟨v, h1, h2⟩ := h C133_window_violated.1 C133_window_violated.2.1
  rw [C133_window_violated.2.2.1] at h1
  rw [C133_window_violated.2.2.2] at h2
  rw [← h1] at h2
  exact absurd (Except.ok.inj h2) (by decide)

/-- A matrix with a hash, 2 × 65: ones in the columns 0, 2 and 64 of row 0 and in column 1 of row 1. -/
def exTwo : Mzd := ⟨2, 65, 0, ⟨2, 2, fun i j => if i = 0 then (if j = 0 then 5#64 else 1#64) else (if j = 0 then 2#64 else 0#64)⟩⟩

theorem exTwo_clean : exTwo.Clean := by
  intro i _ j h1 h2
  have h3 : j < 128 := h2
  have : ∀ i < 2, ∀ j < 128, 65 ≤ j → exTwo.bit i j = false := by decide
  exact this i (by assumption) j h3 h1

/-- Row 0 has the sum 4 and row 1 the sum 2. -/
example : mzd_hash exTwo = .ok (4#64 ^^^ (2#64 <<< 1)) := by with_unfolding_all rfl

/-- The theorems apply to it and to matrices of zeros. -/
example : (∀ i, ∃ v, RowSum (blk exTwo 0 0 2 65) i v ∧ 1 ≤ v.toNat ∧ v.toNat ≤ 64) ∧ mzd_hash (mzd_init 3 5) = .error .overflow :=
  ⟨(C133_defined (rep_blk ⟨Nat.le_refl 2, by decide⟩) exTwo_clean).1 ⟨_, by with_unfolding_all rfl⟩,
    C133_zero_row_violated (A := (0 : Matrix (Fin 3) (Fin 5) (ZMod 2))) (i := 0) ⟨init_wf _ _, rfl, rfl, fun i j => by rw [init_bit]; rfl⟩ (init_clean _ _) fun _ => rfl⟩

end WB.m4w
