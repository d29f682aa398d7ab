import Verif.Proof.M4riTri
import Verif.Proof.M4riPack

/-!
# C123 — the first row of zeros of a matrix of M4RI (`/repo/test/github1_M4RI/src/m4ri/mzd.c`, `mzd_first_zero_row`)
-/
namespace WB.m4w

open WB.cmp (Mem)

variable {m n : Nat} {M : Mzd} {A : Matrix (Fin m) (Fin n) (ZMod 2)}

/-- C123, full statement, what `/repo/test/github1_M4RI/include/m4ri/mzd.h:1284-1290` promises: the first row with all zero entries, or the number of rows. -/
def C123_statement : Prop := ∀ {m n : Nat} {M : Mzd} {A : Matrix (Fin m) (Fin n) (ZMod 2)}, Rep M A → 0 < n →
  ∃ t, mzd_first_zero_row M = .ok t ∧ t ≤ m ∧ (∀ i : Fin m, (i : Nat) < t → A i ≠ 0) ∧ ∀ i : Fin m, (i : Nat) = t → A i = 0

/-- C123: if there are at least 64 columns or the unused bits are zero, the value returned is the smallest number from which on all rows are zero.  (This is what `_mzd_ple` needs.) -/
theorem C123_last_partial (hM : Rep M A) (hn : 0 < n) (h : 64 ≤ n ∨ M.Clean) :
    ∃ t, mzd_first_zero_row M = .ok t ∧ t ≤ m ∧ (∀ i : Fin m, t ≤ i → A i = 0) ∧ ∀ i : Fin m, (i : Nat) + 1 = t → A i ≠ 0 := by
  obtain ⟨t, e, h1, h2, h3⟩ := last_row_ok hM.wf (by rw [hM.ncols]; exact hn) M.nrows (Nat.le_refl _)
  rw [hM.nrows, hM.ncols] at h2
  rw [hM.nrows] at h1
  rw [hM.ncols] at h3
  refine ⟨t, e, h1, fun i hi => ?_, fun i hi hz => ?_⟩
  · funext j
    rw [← hM.bit, h2 i i.2 hi j (.inl j.2)]
    rfl
  · obtain ⟨j, hj, hb⟩ := h3 (by omega)
    rw [show t - 1 = i by omega] at hb
    by_cases hjn : j < n
    · have := hM.bit i ⟨j, hjn⟩
      rw [hz] at this
      dsimp only at this
      rw [hb] at this
      exact absurd (show (1 : ZMod 2) = 0 from this) (by decide)
    · rcases h with h | h
      · omega
      · have := h i (by rw [hM.nrows]; exact i.2) j (by rw [hM.ncols]; omega) (by unfold Mzd.width; rw [hM.ncols]; omega)
        rw [hb] at this
        exact absurd this (by decide)

/-- C123: the value returned is the first row of zeros exactly if no row of zeros is above another row. -/
theorem C123_first_iff (hM : Rep M A) (hn : 0 < n) (h : 64 ≤ n ∨ M.Clean) :
    (∃ t, mzd_first_zero_row M = .ok t ∧ t ≤ m ∧ (∀ i : Fin m, (i : Nat) < t → A i ≠ 0) ∧ ∀ i : Fin m, (i : Nat) = t → A i = 0) ↔ ∀ i j : Fin m, i < j → A i = 0 → A j = 0 := by
  obtain ⟨t, e, h1, h2, h3⟩ := C123_last_partial hM hn h
  constructor
  · rintro ⟨t', e', _, h4, _⟩ i j hij hi
    rw [e] at e'
    obtain rfl : t = t' := Except.ok.inj e'
    have : t ≤ i := by
      by_contra hlt
      exact h4 i (by omega) hi
    have hij : (i : Nat) < j := hij
    exact h2 j (by omega)
  · intro hz
    refine ⟨t, e, h1, fun i hi hi0 => ?_, fun i hi => h2 i (by omega)⟩
    by_cases hit : (i : Nat) + 1 = t
    · exact h3 i hit hi0
    · exact h3 ⟨t - 1, by omega⟩ (by show t - 1 + 1 = t; omega) (hz i _ (by show (i : Nat) < t - 1; omega) hi0)

/-- C123, what goes wrong: if the last row is not zero, the number of rows is returned, whether there are rows of zeros above it or not. -/
theorem C123_zero_row_violated {A : Matrix (Fin (m + 2)) (Fin n) (ZMod 2)} (hM : Rep M A) (hn : 0 < n) (h1 : A (Fin.last _) ≠ 0) : mzd_first_zero_row M = .ok (m + 2) := by
  unfold mzd_first_zero_row
  rw [hM.nrows, show m + 2 = (m + 1) + 1 from rfl, lastRowFrom]
  obtain ⟨x, ex, hx⟩ := row_or_ok hM.wf (by rw [hM.ncols]; exact hn) (i := m + 1) (by rw [hM.nrows]; omega)
  rw [ex, C_ok_bind, if_pos]
  · rfl
  · rw [hx]
    by_contra hno
    refine h1 (funext fun j => ?_)
    rw [← hM.bit]
    have hb : M.bit (m + 1) j = false := by
      by_contra hb
      exact hno ⟨j, .inl (by rw [hM.ncols]; exact j.2), by simpa using hb⟩
    show bitF (M.bit (m + 1) j) = 0
    rw [hb]; rfl

theorem C123_violated : ¬ C123_statement := by
  intro h
  have hM : Rep (pack 2 70 fun i _ => decide (i = 1)) (fun i _ => if i = 1 then 1 else 0 : Matrix (Fin 2) (Fin 70) (ZMod 2)) := pack_rep fun i j => by
    fin_cases i <;> rfl
  obtain ⟨t, e, _, h1, _⟩ := h hM (by decide)
  rw [C123_zero_row_violated (m := 0) hM (by decide) fun h0 => absurd (congrFun h0 0) (by decide)] at e
  obtain rfl : 2 = t := Except.ok.inj e
  exact h1 0 (by decide) (funext fun _ => rfl)

/-- C123, what goes wrong in windows: with fewer than 64 columns all bits of the word count, also those behind the last column. -/
theorem C123_window_violated (hM : Rep M A) (hn : 0 < n) {i j : Nat} (hi : i + 1 = m) (hj : j < 64) (hb : M.bit i j = true) : mzd_first_zero_row M = .ok m := by
  unfold mzd_first_zero_row
  rw [hM.nrows, ← hi, lastRowFrom]
  obtain ⟨x, ex, hx⟩ := row_or_ok hM.wf (by rw [hM.ncols]; exact hn) (i := i) (by rw [hM.nrows]; omega)
  rw [ex, C_ok_bind, if_pos (hx.2 ⟨j, .inr hj, hb⟩)]
  rfl

/-- C123, what goes wrong: a matrix with rows and without columns makes the program read outside of the matrix. -/
theorem C123_no_columns_violated {A : Matrix (Fin (m + 1)) (Fin 0) (ZMod 2)} (hM : Rep M A) : mzd_first_zero_row M = .error .oob := by
  unfold mzd_first_zero_row
  rw [hM.nrows, lastRowFrom]
  have : rowOr M m = .error .oob := if_pos (by unfold Mzd.width; rw [hM.ncols])
  rw [this]
  rfl

/-- 5 rows and 70 columns; the rows from 3 on are zero. -/
def exRows : Matrix (Fin 5) (Fin 70) (ZMod 2) := fun i j => bitF (decide (i < 3 ∧ ((i : Nat) + j) % 2 = 1))
example : ∃ t, mzd_first_zero_row (pack 5 70 fun i j => decide (i < 3 ∧ (i + j) % 2 = 1)) = .ok t ∧ t ≤ 5 ∧ (∀ i : Fin 5, t ≤ i → exRows i = 0) ∧ ∀ i : Fin 5, (i : Nat) + 1 = t → exRows i ≠ 0 :=
  C123_last_partial (pack_rep fun i j => by
    unfold exRows
    congr 1) (by decide) (.inl (by decide))

/-- Three rows with one word each: the value is 2.  In the window of the first three columns it is 2, too, although these are zero from row 1 on. -/
def exFirst : Mzd := ⟨3, 60, 0, ⟨3, 1, fun i _ => if i = 0 then 5#64 else if i = 1 then 8#64 else 0#64⟩⟩
example : mzd_first_zero_row exFirst = .ok 2 := by with_unfolding_all rfl
example : mzd_first_zero_row (mzd_window exFirst 0 0 3 3) = .ok 2 := by with_unfolding_all rfl
example : mzd_first_zero_row (mzd_window exFirst 0 0 2 3) = .ok 2 :=
  C123_window_violated (m := 2) (n := 3) (A := blk exFirst 0 0 2 3) (window_rep (M := exFirst) ⟨by decide, by decide⟩ (by decide) (by decide) (by decide) (by decide) (by decide) rfl rfl) (by decide) (i := 1) (j := 3) rfl (by decide) rfl

end WB.m4w
