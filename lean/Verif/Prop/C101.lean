import Verif.Proof.M4riPack

/-!
# C101 — transposition in M4RI (`/repo/test/github1_M4RI/src/m4ri/mzd.c`)
-/
namespace WB.m4w

open WB.cmp (Mem)

/-- C101: `mzd_transpose(NULL, A)` of every matrix that is not empty and lies in one block of memory is the transpose, and its unused
bits are zero: whatever the uninitialised memory contains and whatever is done about larger matrices. -/
theorem C101_transpose (junk : Nat → Word) (mb : Mzd → Mzd → C Mzd) {M : Mzd} {r c : Nat} {A : Matrix (Fin r) (Fin c) (ZMod 2)} (hr : 0 < r) (hc : 0 < c)
    (hf : Fits r c) (hM : Rep M A) (cM : M.Clean) : ∃ N, mzd_transpose junk mb M = .ok N ∧ Rep N A.transpose ∧ N.Clean :=
  transposes junk mb hr hc hf hM cM

/-- C101: transposing twice gives the same matrix back. -/
theorem C101_twice (junk : Nat → Word) (mb : Mzd → Mzd → C Mzd) {M : Mzd} {r c : Nat} {A : Matrix (Fin r) (Fin c) (ZMod 2)} (hr : 0 < r) (hc : 0 < c)
    (hf : Fits r c) (hM : Rep M A) (cM : M.Clean) : ∃ N, (mzd_transpose junk mb M >>= mzd_transpose junk mb) = .ok N ∧ Rep N A ∧ N.Clean := by
  obtain ⟨N, h1, h2, h3⟩ := C101_transpose junk mb hr hc hf hM cM
  obtain ⟨N', h4, h5, h6⟩ := C101_transpose junk mb hc hr ⟨hf.2.1, hf.1, hf.2.2.2, hf.2.2.1⟩ h2 h3
  refine ⟨N', ?_, ?_, h6⟩
  · rw [h1]; exact h4
  · rw [Matrix.transpose_transpose] at h5; exact h5

/-- C101: a word per row is transposed like the 64 × 64 matrix of its bits. -/
theorem C101_word (t : Mem Word) (h : t.size = 64) : ∃ t', transpose64 t = .ok t' ∧ t'.size = 64 ∧
    ∀ r < 64, ∀ p < 64, (t'.cell r).getLsbD p = (t.cell p).getLsbD r := by
  obtain ⟨t', h1, h2, h3⟩ := transpose64_spec h
  exact ⟨t', h1, h2, h3⟩

/-- C101, full statement: every matrix can be transposed. -/
def C101_statement : Prop := ∀ (junk : Nat → Word) (mb : Mzd → Mzd → C Mzd) {M : Mzd} {r c : Nat} {A : Matrix (Fin r) (Fin c) (ZMod 2)}, Fits r c → Rep M A →
  M.Clean → ∃ N, mzd_transpose junk mb M = .ok N ∧ Rep N A.transpose

/-- C101, what goes wrong: a matrix with rows but no columns, or with columns but no rows, makes the program abort. -/
theorem C101_empty_violated (junk : Nat → Word) (mb : Mzd → Mzd → C Mzd) {M : Mzd} (h : (M.nrows = 0 ∧ 0 < M.ncols) ∨ (M.ncols = 0 ∧ 0 < M.nrows)) :
    mzd_transpose junk mb M = .error .abort := by
  unfold mzd_transpose
  simp only []
  rw [if_pos (by omega)]
  unfold mzd_copy
  refine if_pos ?_
  show M.ncols < M.nrows ∨ M.nrows < M.ncols
  omega

theorem C101_violated : ¬ C101_statement := by
  intro h
  obtain ⟨N, h1, _⟩ := h (fun _ => 0#64) (fun D _ => .ok D) (M := pack 0 3 fun _ _ => true) (A := fun _ _ => 1)
    (by unfold Fits; decide) (pack_rep fun i => i.elim0) (pack_clean _ _ _)
  rw [C101_empty_violated _ _ (Or.inl ⟨rfl, by decide⟩)] at h1
  cases h1

/-! ## Examples -/

/-- The matrix of the examples: 70 × 130. -/
def exA : Matrix (Fin 70) (Fin 130) (ZMod 2) := fun i j => bitF (decide (((i : Nat) * 3 + j * 5 + i * j) % 7 < 3))

/-- Its words. -/
def exM : Mzd := pack 70 130 fun i j => decide ((i * 3 + j * 5 + i * j) % 7 < 3)

theorem exM_rep : Rep exM exA := pack_rep fun _ _ => rfl

/-- The program is run. -/
example : (match mzd_transpose (fun _ => 0x123456789abcdef#64) (fun D _ => .ok D) (pack 3 10 fun i j => decide ((i * 3 + j * 5 + i * j) % 7 < 3)) with
    | .ok N => (List.range 10).map fun i => (N.word i 0).toNat | .error _ => []) = [1, 2, 2, 3, 0, 0, 1, 1, 2, 2] := by decide +kernel

example : ∃ N, mzd_transpose (fun _ => 7#64) (fun D _ => .ok D) exM = .ok N ∧ Rep N exA.transpose ∧ N.Clean :=
  C101_transpose _ _ (by decide) (by decide) (by unfold Fits; decide) exM_rep (pack_clean _ _ _)

/-- A matrix of 5000 × 20000 bits. -/
example : ∃ N, (mzd_transpose (fun _ => 7#64) (fun D _ => .ok D) (pack 5000 20000 fun i j => decide (i ^ 2 < j)) >>= mzd_transpose (fun _ => 7#64) fun D _ => .ok D) = .ok N ∧
    Rep N (fun (i : Fin 5000) (j : Fin 20000) => bitF (decide ((i : Nat) ^ 2 < j))) ∧ N.Clean :=
  C101_twice _ _ (by decide) (by decide) (by unfold Fits; decide) (pack_rep fun _ _ => rfl) (pack_clean _ _ _)

example : ∃ t', transpose64 ⟨64, fun k => BitVec.ofNat 64 (k * k + 1)⟩ = .ok t' ∧ t'.size = 64 ∧
    ∀ r < 64, ∀ p < 64, (t'.cell r).getLsbD p = (BitVec.ofNat 64 (p * p + 1)).getLsbD r := C101_word ⟨64, fun k => BitVec.ofNat 64 (k * k + 1)⟩ rfl

example : mzd_transpose (fun _ => 7#64) (fun D _ => .ok D) (pack 0 3 fun _ _ => true) = .error .abort := C101_empty_violated _ _ (Or.inl ⟨rfl, by decide⟩)

end WB.m4w
