import Verif.Proof.M4riRows
import Verif.Proof.M4riPack

/-!
# C129 — clearing and copying rows of matrices of M4RI (`/repo/test/github1_M4RI/src/m4ri/mzd.c`, `mzd_row_clear_offset` and `mzd_copy_row`)
-/
namespace WB.m4w

open WB.cmp (Mem Mem2)

variable {m n r s c : Nat} {M MB : Mzd} {A : Matrix (Fin m) (Fin n) (ZMod 2)} {B : Matrix (Fin r) (Fin s) (ZMod 2)}

/-- C129, full statement: `mzd_row_clear_offset(M, i, c)` sets the entries of row `i` from column `c` on to zero and `mzd_copy_row(B, i, A, j)` copies row `j` of `A` to the first columns of row `i`
of `B`; neither changes anything else, also not behind the last column. -/
def C129_statement : Prop :=
  (∀ {m n : Nat} {M : Mzd} {A : Matrix (Fin m) (Fin n) (ZMod 2)}, Rep M A → ∀ (i c : Nat), i < m → c < n →
    ∃ N, mzd_row_clear_offset M i c = .ok N ∧ N.nrows = m ∧ N.ncols = n ∧ ∀ a b, N.bit a b = if a = i ∧ c ≤ b ∧ b < n then false else M.bit a b) ∧
  ∀ {m n r s : Nat} {M MB : Mzd} {A : Matrix (Fin m) (Fin n) (ZMod 2)} {B : Matrix (Fin r) (Fin s) (ZMod 2)}, Rep M A → Rep MB B → n ≤ s → ∀ (i : Fin r) (j : Fin m),
    ∃ N, mzd_copy_row MB i M j = .ok N ∧ Rep N (fun a b => if h : a = i ∧ (b : Nat) < n then A j ⟨b, h.2⟩ else B a b) ∧ ∀ a b, s ≤ b → N.bit a b = MB.bit a b

/-- C129, what holds for `mzd_row_clear_offset`: where the offset is a multiple of 64, the row is cleared from there on, to the end of its last word. -/
theorem C129_clear_partial (hM : Rep M A) {i : Nat} (hi : i < m) (hc : c < n) (h64 : c % 64 = 0) :
    ∃ N, mzd_row_clear_offset M i c = .ok N ∧ Rep N (fun a b => if (a : Nat) = i ∧ c ≤ (b : Nat) then 0 else A a b) ∧
      ∀ a b, N.bit a b = if a = i ∧ c ≤ b ∧ b < 64 * ((n + 63) / 64) then false else M.bit a b := by
  obtain ⟨N, e, sh, hN⟩ := clear_offset_word hM.wf (r := i) (c := c) (by rw [hM.nrows]; exact hi) (by rw [hM.ncols]; exact hc) h64
  have hw : M.width = (n + 63) / 64 := by unfold Mzd.width; rw [hM.ncols]
  rw [hw] at hN
  refine ⟨N, e, ⟨sh.wf hM.wf, sh.nrows.trans hM.nrows, sh.ncols.trans hM.ncols, fun a b => ?_⟩, hN⟩
  rw [hN]
  by_cases h : (a : Nat) = i ∧ c ≤ (b : Nat)
  · rw [if_pos h, if_pos ⟨h.1, h.2, by omega⟩]; rfl
  · rw [if_neg h, if_neg (fun g => h ⟨g.1, g.2.1⟩)]
    exact hM.bit a b

/-- C129, what goes wrong: with an offset between 0 and 64 the entries before the offset are cleared and those from it on in the same word are left. -/
theorem C129_clear_violated (hM : Rep M A) {i : Nat} (hi : i < m) (hc : c < n) (h0 : 0 < c) (hl : c < 64) :
    ∃ N, mzd_row_clear_offset M i c = .ok N ∧ Rep N (fun a b => if (a : Nat) = i ∧ ((b : Nat) < c ∨ 64 ≤ (b : Nat)) then 0 else A a b) := by
  obtain ⟨N, e, sh, hN⟩ := clear_offset_low hM.wf (r := i) (c := c) (by rw [hM.nrows]; exact hi) (by rw [hM.ncols]; exact hc) hl h0
  have hw : M.width = (n + 63) / 64 := by unfold Mzd.width; rw [hM.ncols]
  refine ⟨N, e, sh.wf hM.wf, sh.nrows.trans hM.nrows, sh.ncols.trans hM.ncols, fun a b => ?_⟩
  rw [hN, hw]
  by_cases h : (a : Nat) = i ∧ ((b : Nat) < c ∨ 64 ≤ (b : Nat))
  · rw [if_pos h, if_pos ⟨h.1, h.2.imp id fun g => ⟨g, by omega⟩⟩]; rfl
  · rw [if_neg h, if_neg (fun g => h ⟨g.1, g.2.imp id fun g => g.1⟩)]
    exact hM.bit a b

/-- C129, what goes wrong: with every other offset a word is shifted by 64 or more, which is undefined. -/
theorem C129_shift_violated (hM : Rep M A) {i : Nat} (hi : i < m) (hc : c < n) (h64 : c % 64 ≠ 0) (hl : 64 < c) : mzd_row_clear_offset M i c = .error .overflow := by
  unfold mzd_row_clear_offset
  simp only []
  rw [if_pos h64, get_eq (hM.wf.at (by rw [hM.nrows]; exact hi) (by unfold Mzd.width; rw [hM.ncols]; omega)), C_ok_bind, if_pos (by omega)]
  rfl

/-- C129: `mzd_copy_row` copies the row and changes nothing else, for matrices with columns. -/
theorem C129_copy_partial (hM : Rep M A) (hB : Rep MB B) (h0 : 0 < n) (hn : n ≤ s) (i : Fin r) (j : Fin m) :
    ∃ N, mzd_copy_row MB i M j = .ok N ∧ Rep N (fun a b => if h : a = i ∧ (b : Nat) < n then A j ⟨b, h.2⟩ else B a b) ∧
      ∀ a b : Nat, (a ≠ (i : Nat) ∨ n ≤ b) → N.bit a b = MB.bit a b := by
  obtain ⟨N, e, sh, hN⟩ := copy_row_spec hM.wf hB.wf (by rw [hM.ncols, hB.ncols]; exact hn) (by rw [hM.ncols]; exact h0) (i := i) (j := j) (by rw [hB.nrows]; exact i.2) (by rw [hM.nrows]; exact j.2)
  rw [hM.ncols] at hN
  refine ⟨N, e, ⟨sh.wf hB.wf, sh.nrows.trans hB.nrows, sh.ncols.trans hB.ncols, fun a b => ?_⟩, fun a b g => by rw [hN, if_neg (by omega)]⟩
  rw [hN]
  by_cases h : a = i ∧ (b : Nat) < n
  · rw [dif_pos h, if_pos ⟨by rw [h.1], h.2⟩]
    exact hM.bit j ⟨b, h.2⟩
  · rw [dif_neg h, if_neg (fun g => h ⟨Fin.ext g.1, g.2⟩)]
    exact hB.bit a b

/-- C129: a row that is too long makes the program abort. -/
theorem C129_copy_size (i j : Nat) (h : MB.ncols < M.ncols) : mzd_copy_row MB i M j = .error .abort := by
  unfold mzd_copy_row
  rw [if_pos h]

/-- C129, what goes wrong: without columns the word before the row is accessed. -/
theorem C129_no_columns_violated (i j : Nat) (h : M.ncols = 0) : mzd_copy_row MB i M j = .error .oob := by
  unfold mzd_copy_row
  rw [if_neg (by omega), if_pos (by unfold Mzd.width; rw [h]; omega)]

/-- Two rows of 70 columns with ones everywhere. -/
def exOnesR : Mzd := ⟨2, 70, 0, ⟨2, 2, fun _ j => if j = 0 then 0xffffffffffffffff#64 else 63#64⟩⟩

theorem exOnesR_rep : Rep exOnesR (blk exOnesR 0 0 2 70) := rep_blk ⟨by decide, by decide⟩

/-- C129: the full statement is false. -/
theorem C129_violated : ¬ C129_statement := by
  intro h
  obtain ⟨N, e, _, _, hN⟩ := h.1 exOnesR_rep 1 3 (by decide) (by decide)
  obtain ⟨N', e', hN'⟩ := C129_clear_violated exOnesR_rep (i := 1) (c := 3) (by decide) (by decide) (by decide) (by decide)
  rw [e] at e'
  obtain rfl : N = N' := Except.ok.inj e'
  have h1 := hN'.bit 1 (0 : Fin 70)
  have h2 : N.bit 1 0 = true := by rw [hN]; decide
  have h3 : bitF (N.bit 1 0) = 0 := h1.trans (if_pos ⟨rfl, .inl (by decide)⟩)
  rw [h2] at h3
  exact absurd h3 (by decide)

/-- Row 1 is to be cleared from column 3 on: columns 0 to 2 are cleared and the others of the first word are left.  From column 64 on it is right, at column 65 the shift is undefined. -/
example : (mzd_row_clear_offset exOnesR 1 3).map (fun N => (N.word 1 0, N.word 1 1)) = .ok (0xfffffffffffffff8#64, 0#64) ∧
    (mzd_row_clear_offset exOnesR 1 64).map (fun N => (N.word 1 0, N.word 1 1)) = .ok (0xffffffffffffffff#64, 0#64) ∧
    (mzd_row_clear_offset exOnesR 1 65).map (fun N => N.word 1 0) = .error .overflow := by
  refine ⟨?_, ?_, ?_⟩ <;> with_unfolding_all rfl

/-- The theorems apply to it; a row of 70 ones is copied to a matrix with 100 columns. -/
example : (∃ N, mzd_row_clear_offset exOnesR 1 64 = .ok N ∧ Rep N (fun a b => if (a : Nat) = 1 ∧ 64 ≤ (b : Nat) then 0 else blk exOnesR 0 0 2 70 a b)) ∧
    ∃ N, mzd_copy_row (mzd_init 3 100) 2 exOnesR 1 = .ok N ∧ N.bit 2 69 = true ∧ N.bit 2 70 = false ∧ N.bit 1 3 = false := by
  obtain ⟨N, e, hN, _⟩ := C129_clear_partial exOnesR_rep (i := 1) (c := 64) (by decide) (by decide) (by decide)
  have hB : Rep (mzd_init 3 100) (blk (mzd_init 3 100) 0 0 3 100) := rep_blk (init_wf _ _)
  obtain ⟨K, e', hK, out⟩ := C129_copy_partial exOnesR_rep hB (by decide) (by decide) 2 1
  refine ⟨⟨N, e, hN⟩, K, e', ?_, ?_, ?_⟩
  · have := hK.bit 2 (69 : Fin 100)
    rw [dif_pos ⟨rfl, by decide⟩] at this
    have h1 : bitF (K.bit 2 69) = bitF (exOnesR.bit (0 + 1) (0 + 69)) := this
    rw [show exOnesR.bit (0 + 1) (0 + 69) = true by decide] at h1
    cases h : K.bit 2 69
    · rw [h] at h1; exact absurd h1 (by decide)
    · rfl
  · rw [out 2 70 (.inr (by decide)), init_bit]
  · rw [out 1 3 (.inl (by decide)), init_bit]

end WB.m4w
