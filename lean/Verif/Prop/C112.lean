import Verif.Proof.M4riLayout
import Verif.SpecM4riLayout

/-!
# C112: the rows of M4RI's matrices and windows are where the functions look for them

`Made M` (`SpecM4riLayout.lean`): `M` is a new matrix, or a window of such a matrix, or a window of a window and so on.  `M.rows i` is the address of row `i` as
`mzd_init` and `mzd_init_window` store it: the number of a block of memory and the place in it.
-/
namespace WB.m4l

/-- Matrices of up to 2^31 - 2^27 - 1 rows and 2^31 - 64 columns can be made (if there is memory). -/
theorem C112_init {r c : Nat} (hr : 0 < r) (hc : 0 < c) (hr2 : r < 2 ^ 31 - 2 ^ 27) (hc2 : c ≤ 2 ^ 31 - 64) : ∃ M, mzd_init r c = .ok M ∧ Made M ∧ M.nrows = r ∧ M.ncols = c := by
  have key : ∃ M, mzd_init r c = .ok M := by
    unfold mzd_init
    rw [i32_ok (by omega) (by omega), ok_bind]
    simp only []
    generalize hst : (if ((c : Int) + 63).toNat / 64 < 1 ∨ ((c : Int) + 63).toNat / 64 % 2 = 0 then ((c : Int) + 63).toNat / 64 else ((c : Int) + 63).toNat / 64 + 1) = stride
    have hs1 : 0 < stride ∧ stride ≤ 2 ^ 25 := by rw [← hst]; split <;> omega
    rw [i32_ok (by omega) (by omega), ok_bind]
    have hq : 0 < 2 ^ 27 / stride := Nat.div_pos (by omega) (by omega)
    have hb := blockLog_spec _ hq
    have hd : 2 ^ 27 / stride ≤ 2 ^ 27 := Nat.div_le_self _ _
    rw [i32_ok (by positivity) (by omega), ok_bind]
    exact ⟨_, rfl⟩
  obtain ⟨M, e⟩ := key
  exact ⟨M, e, .init hr hc e, (init_wf hr hc e).2⟩

/-- All words of all rows lie inside of their block of memory, and no two rows share a word. -/
theorem C112_rows {M : Lay} (h : Made M) : (∀ i < M.nrows, InBlock M (M.rows i)) ∧ ∀ i j, i < j → (M.rows i).1 = (M.rows j).1 → (M.rows i).2 + M.width ≤ (M.rows j).2 := by
  obtain ⟨R, wo, hw⟩ := h.wf
  exact ⟨fun i hi => hw.inBlock hi, fun i j hij hb => hw.disjoint hij hb⟩

/-- A window that starts at a row of the matrix and at a column that is a multiple of 64 can always be made; its rows are those of the matrix. -/
theorem C112_window_partial {M : Lay} {lowr lowc highr highc : Nat} (h : Made M) (h1 : lowr ≤ highr) (h2 : lowr < M.nrows) (h3 : lowc ≤ highc) (h4 : highc ≤ M.ncols) (h64 : lowc % 64 = 0) :
    ∃ W, mzd_init_window M lowr lowc highr highc = .ok W ∧ Made W ∧ W.nrows = min highr M.nrows - lowr ∧ W.ncols = highc - lowc ∧
      ∀ i, W.rows i = ((M.rows (lowr + i)).1, (M.rows (lowr + i)).2 + (lowc / 64 : Nat)) := by
  obtain ⟨R, wo, hw⟩ := h.wf
  obtain ⟨W, e, _, hn⟩ := window_wf (highr := highr) hw h1 h2.le h3 h4 h64 (.inl h2)
  exact ⟨W, e, .window h h1 h2.le h3 h4 e, hn⟩

/-- What goes wrong: of a matrix whose rows fill its only block, no empty window can be made that starts behind the last row; an assertion fails. -/
theorem C112_window_violated {r c : Nat} {M : Lay} (hr : 0 < r) (hc : 0 < c) (h : mzd_init r c = .ok M) (hb : r = 2 ^ M.blog) : mzd_init_window M r 0 r c = .error .abort := by
  obtain ⟨hw, hn, _⟩ := init_wf hr hc h
  have hro : M.roff = 0 := by
    unfold mzd_init at h
    cases h1 : i32 (c + 63) with
    | error e => rw [h1] at h; exact absurd h (by simp [bind, Except.bind])
    | ok x =>
    rw [h1, ok_bind] at h
    cases h2 : i32 (r + 1) with
    | error e => rw [h2] at h; exact absurd h (by simp [bind, Except.bind])
    | ok x =>
    rw [h2, ok_bind] at h
    simp only [] at h
    generalize blockLog _ = bl at h
    cases h3 : i32 (r + (2 ^ bl : Nat)) with
    | error e => rw [h3] at h; exact absurd h (by simp [bind, Except.bind])
    | ok x =>
    rw [h3, ok_bind] at h
    have := Except.ok.inj h
    rw [← this]
  unfold mzd_init_window
  rw [if_neg (by omega)]
  simp only []
  rw [if_pos]
  rintro (hs | hs)
  · rw [hro, Nat.shiftRight_eq_div_pow, Nat.zero_add, ← hb, Nat.div_self hr] at hs
    omega
  · rw [hw.multi, decide_eq_true_eq, hro, hn] at hs
    omega

/-- `mzd_row` returns the address of the row: its assertion never fails. -/
theorem C112_row {M : Lay} (h : Made M) {i : Nat} (hi : i < M.nrows) (ho : M.offv + i * M.rowstride < 2 ^ 31) : mzd_row M i = .ok (M.rows i) := by
  obtain ⟨R, wo, hw⟩ := h.wf
  exact hw.row hi ho

/-- What goes wrong: the place of a row is computed in type `int`; with 2^31 words before the row it overflows. -/
theorem C112_row_violated {M : Lay} (h : Made M) {i : Nat} (ho : 2 ^ 31 ≤ M.offv + i * M.rowstride) : mzd_row M i = .error .overflow := by
  obtain ⟨R, wo, hw⟩ := h.wf
  exact hw.row_overflow ho

/-- `mzd_first_row` and `mzd_first_row_next_block` return the addresses of the first row and of the first row in the given block. -/
theorem C112_first {M : Lay} (h : Made M) : mzd_first_row M = .ok (M.rows 0) ∧
    ∀ i n, 0 < i → (M.rows i).1 = M.base + n → (M.rows (i - 1)).1 ≠ M.base + n → mzd_first_row_next_block M n = M.rows i := by
  obtain ⟨R, wo, hw⟩ := h.wf
  refine ⟨hw.first, fun i n hi h1 h2 => hw.next ?_⟩
  have hB := hw.pos
  rw [hw.rows, Nat.add_assoc, (divB hB).1] at h1 h2
  have h1' : M.base + (M.roff + i) / 2 ^ M.blog = M.base + n := h1
  have h2' : M.base + (M.roff + (i - 1)) / 2 ^ M.blog ≠ M.base + n := h2
  have a := (block_iff hB).1 (show (M.roff + i) / 2 ^ M.blog = n by omega)
  by_contra hc
  exact h2' (by rw [(block_iff hB (x := M.roff + (i - 1)) (n := n)).2 (by omega)])

/-- `mzd_rows_in_block` is the number of rows in a block (or negative behind the last one). -/
theorem C112_rows_in_block {M : Lay} (h : Made M) (n : Nat) : (mzd_rows_in_block M n).toNat = rowsFrom M 0 n := by
  obtain ⟨R, wo, hw⟩ := h.wf
  have hro := hw.roff
  rw [hw.rowsFrom]
  by_cases hn : n = 0
  · rw [hn, hw.rowsIn0]
    simp only [Nat.zero_mul, Nat.zero_add, Int.toNat_natCast]
    omega
  · have hge : 2 ^ M.blog ≤ n * 2 ^ M.blog := Nat.le_mul_of_pos_left _ (by omega)
    by_cases hp : n * 2 ^ M.blog < M.roff + M.nrows
    · rw [hw.rowsIn (by omega) hp, Int.toNat_natCast]
      omega
    · have := hw.rowsIn_le (n := n) (by omega) (by omega)
      omega

/-- `mzd_remaining_rows_in_block` exceeds the number of rows that are left in the block by the number of rows that the first block has before the window, unless
the row is in the first block. -/
theorem C112_remaining {M : Lay} (h : Made M) {r n : Nat} (hr : r < M.nrows) (hn : (M.rows r).1 = M.base + n) :
    mzd_remaining_rows_in_block M r = (rowsFrom M r n : Int) + if n = 0 then 0 else (M.roff : Int) := by
  obtain ⟨R, wo, hw⟩ := h.wf
  have hB := hw.pos
  have hro := hw.roff
  rw [hw.rows, Nat.add_assoc, (divB hB).1] at hn
  have hn' : M.base + (M.roff + r) / 2 ^ M.blog = M.base + n := hn
  have hn2 : (M.roff + r) / 2 ^ M.blog = n := by omega
  obtain ⟨h1, h2⟩ := (block_iff hB).1 hn2
  rw [hw.remaining hr, hw.rowsFrom, hn2]
  congr 2
  omega

/-- It is right for matrices, and for windows in the first block. -/
theorem C112_remaining_partial {M : Lay} (h : Made M) {r n : Nat} (hr : r < M.nrows) (hn : (M.rows r).1 = M.base + n) (h0 : M.roff = 0 ∨ n = 0) :
    mzd_remaining_rows_in_block M r = rowsFrom M r n := by
  rw [C112_remaining h hr hn]
  rcases h0 with h0 | h0
  · rw [h0]; simp
  · rw [if_pos h0]; simp

/-- What goes wrong: in all other cases it is too large. -/
theorem C112_remaining_violated {M : Lay} (h : Made M) {r n : Nat} (hr : r < M.nrows) (hn : (M.rows r).1 = M.base + n) (h0 : M.roff ≠ 0) (h1 : n ≠ 0) :
    (rowsFrom M r n : Int) < mzd_remaining_rows_in_block M r := by
  rw [C112_remaining h hr hn, if_neg h1]; omega

theorem word_lt {M : Lay} {R wo c : Nat} (hw : WF M R wo) (hc : c < M.ncols) : c / 64 < M.width := by
  have := hw.widthEq; omega

/-- `mzd_col_swap` visits each row once. -/
theorem C112_col_swap {M : Lay} (h : Made M) {a b : Nat} (hn : 0 < M.nrows) (hab : a ≠ b) (ha : a < M.ncols) (hb : b < M.ncols) :
    mzd_col_swap M a b = .ok ((List.range M.nrows).map M.rows) := by
  obtain ⟨R, wo, hw⟩ := h.wf
  have hro := hw.roff
  have hB := hw.pos
  unfold mzd_col_swap
  rw [if_neg hab, hw.first, ok_bind]
  simp only []
  rw [hw.rowsIn0, if_neg (by omega)]
  have := swapAll_rows hw (word_lt hw ha) (word_lt hw hb) (M.nrows + 1) 0 0 (by omega) hn (by omega) (by omega)
  simp only [Nat.zero_mul, Nat.zero_add, Nat.add_zero, Nat.sub_zero, ← List.range_eq_range'] at this
  exact this

/-- `mzd_col_swap_in_rows` visits each row from `start` to `stop` once if the window starts at the start of a block, or `start` is in its first block, or all
these rows are in one block. -/
theorem C112_in_rows_partial {M : Lay} (h : Made M) {a b start stop : Nat} (hs : start < stop) (hst : stop ≤ M.nrows) (hab : a ≠ b) (ha : a < M.ncols) (hb : b < M.ncols)
    (ho : M.offv + start * M.rowstride < 2 ^ 31) (h0 : M.roff = 0 ∨ (M.rows start).1 = M.base ∨ (M.rows (stop - 1)).1 = (M.rows start).1) :
    mzd_col_swap_in_rows M a b start stop = .ok ((List.range' start (stop - start)).map M.rows) := by
  obtain ⟨R, wo, hw⟩ := h.wf
  have hro := hw.roff
  have hB := hw.pos
  obtain ⟨h1, h2⟩ := (block_iff hB (x := M.roff + start) (n := (M.roff + start) / 2 ^ M.blog)).1 rfl
  have hcount : min (mzd_remaining_rows_in_block M start) ((stop : Int) - start) =
      ((min ((M.roff + start) / 2 ^ M.blog * 2 ^ M.blog + 2 ^ M.blog) (M.roff + stop) - (M.roff + start) : Nat) : Int) := by
    rw [hw.remaining (by omega)]
    rcases h0 with h0 | h0 | h0
    · rw [h0]; simp only [Int.natCast_zero, ite_self]
      rw [h0] at h1 h2
      omega
    · rw [hw.rows, Nat.add_assoc, (divB hB).1] at h0
      have h0' : M.base + (M.roff + start) / 2 ^ M.blog = M.base := h0
      have e : (M.roff + start) / 2 ^ M.blog = 0 := by omega
      rw [e] at h1 h2 ⊢
      rw [if_pos rfl]
      omega
    · rw [hw.rows, hw.rows, Nat.add_assoc, (divB hB).1, Nat.add_assoc, (divB hB).1] at h0
      have h0' : M.base + (M.roff + (stop - 1)) / 2 ^ M.blog = M.base + (M.roff + start) / 2 ^ M.blog := h0
      have := (block_iff hB).1 (show (M.roff + (stop - 1)) / 2 ^ M.blog = (M.roff + start) / 2 ^ M.blog by omega)
      split <;> omega
  unfold mzd_col_swap_in_rows
  rw [if_neg hab, hw.row (by omega) ho, ok_bind]
  simp only []
  rw [hcount, if_neg (by omega)]
  unfold mzd_row_to_block
  rw [Nat.shiftRight_eq_div_pow]
  exact swapLoop_rows hw (word_lt hw ha) (word_lt hw hb) hst (stop + 1) start _ (by omega) hs h1 h2

/-- What goes wrong: in all other cases it leaves the block of memory. -/
theorem C112_in_rows_violated {M : Lay} (h : Made M) {a b start stop : Nat} (hs : start < stop) (hst : stop ≤ M.nrows) (hab : a ≠ b)
    (ho : M.offv + start * M.rowstride < 2 ^ 31) (h0 : M.roff ≠ 0) (h1 : (M.rows start).1 ≠ M.base) (h2 : (M.rows (stop - 1)).1 ≠ (M.rows start).1) :
    mzd_col_swap_in_rows M a b start stop = .error .oob := by
  obtain ⟨R, wo, hw⟩ := h.wf
  have hro := hw.roff
  have hB := hw.pos
  have hin := hw.inside
  obtain ⟨h3, h4⟩ := (block_iff hB (x := M.roff + start) (n := (M.roff + start) / 2 ^ M.blog)).1 rfl
  have e1 : (M.roff + start) / 2 ^ M.blog ≠ 0 := fun e => h1 (by
    rw [hw.rows, Nat.add_assoc, (divB hB).1, e]; rfl)
  have e2 : (M.roff + (stop - 1)) / 2 ^ M.blog ≠ (M.roff + start) / 2 ^ M.blog := fun e => h2 (by
    rw [hw.rows, hw.rows, Nat.add_assoc, (divB hB).1, Nat.add_assoc, (divB hB).1, e])
  have e3 : (M.roff + start) / 2 ^ M.blog * 2 ^ M.blog + 2 ^ M.blog ≤ M.roff + (stop - 1) := by
    by_contra hc
    exact e2 ((block_iff hB).2 (by omega))
  have hrem := hw.remaining (r := start) (by omega)
  rw [if_neg e1] at hrem
  unfold mzd_col_swap_in_rows
  rw [if_neg hab, hw.row (by omega) ho, ok_bind]
  simp only []
  rw [if_neg (by omega)]
  unfold swapLoop
  rw [hw.row_eq h3 h4, visit_oob]
  · rfl
  · generalize hn : (M.roff + start) / 2 ^ M.blog = n at *
    refine ⟨n * 2 ^ M.blog + 2 ^ M.blog - (M.roff + start), by omega, ?_⟩
    have hsz : M.size (M.base + n) ≤ 2 ^ M.blog * M.rowstride := by
      rw [hw.size]; exact Nat.mul_le_mul_right _ (Nat.min_le_left _ _)
    have e : (M.roff + start - n * 2 ^ M.blog) * M.rowstride + (n * 2 ^ M.blog + 2 ^ M.blog - (M.roff + start)) * M.rowstride = 2 ^ M.blog * M.rowstride := by
      rw [← Nat.add_mul]; congr 1; omega
    have : M.size (M.base + n) ≤ (M.roff + start - n * 2 ^ M.blog) * M.rowstride + wo + (n * 2 ^ M.blog + 2 ^ M.blog - (M.roff + start)) * M.rowstride + a / 64 := by omega
    exact_mod_cast this

/-! ## Examples: 24576 rows of 2^20 columns (3 GB), three blocks of 8192 rows -/

theorem ex_log : blockLog (2 ^ 27 / 16384) = 13 := by simp [blockLog]

def exM (r : Nat) : Lay :=
  { nrows := r, ncols := 1048576, width := 16384, rowstride := 16384, offv := 0, roff := 0, multi := decide (1 < (r + 8192 - 1) / 8192), blog := 13, base := 0,
    size := blockSizes ((r + 8192 - 1) / 8192) ((r - ((r + 8192 - 1) / 8192 - 1) * 8192) * 16384) (8192 * 16384), rows := fun i => (i >>> 13, (((i &&& 8191) * 16384 : Nat) : Int)) }

theorem ex_init (r : Nat) (hr : r < 2 ^ 30) : mzd_init r 1048576 = .ok (exM r) := by
  unfold mzd_init
  rw [i32_ok (by decide) (by decide), ok_bind]
  have e : ((1048576 : Nat) + 63 : Int).toNat / 64 = 16384 := rfl
  simp only [e]
  rw [if_pos (by decide), i32_ok (by omega) (by omega), ok_bind, ex_log, i32_ok (by omega) (by omega), ok_bind]
  have e2 : ((r : Int) + (2 ^ 13 : Nat)).toNat = r + 8192 := by omega
  rw [e2]
  rfl

def exW : Lay :=
  { nrows := 24575, ncols := 1048576, width := 16384, rowstride := 16384, offv := 16384, roff := 1, multi := true, blog := 13, base := 0,
    size := (exM 24576).size, rows := fun i => (((exM 24576).rows (1 + i)).1, ((exM 24576).rows (1 + i)).2 + (0 : Nat)) }

theorem exW_eq : mzd_init_window (exM 24576) 1 0 24576 1048576 = .ok exW := rfl
theorem exW_made : Made exW := .window (.init (by decide) (by decide) (ex_init 24576 (by decide))) (by decide) (by decide) (by decide) (by decide) exW_eq

example : mzd_row exW 8191 = .ok (exW.rows 8191) ∧ exW.rows 8191 = (1, 0) := ⟨C112_row exW_made (by decide) (by decide), rfl⟩
example : mzd_first_row_next_block exW 1 = exW.rows 8191 := (C112_first exW_made).2 8191 1 (by decide) rfl (by decide)
example : (mzd_rows_in_block exW 0).toNat = rowsFrom exW 0 0 ∧ mzd_rows_in_block exW 0 = 8191 := ⟨C112_rows_in_block exW_made 0, by decide⟩
example : mzd_remaining_rows_in_block exW 8191 = 8193 ∧ mzd_rows_in_block exW 1 = 8192 := by decide
example : mzd_col_swap exW 0 100 = .ok ((List.range 24575).map exW.rows) := C112_col_swap exW_made (by decide) (by decide) (by decide) (by decide)
example : mzd_col_swap_in_rows exW 0 100 100 24575 = .ok ((List.range' 100 24475).map exW.rows) :=
  C112_in_rows_partial exW_made (by decide) (by decide) (by decide) (by decide) (by decide) (by decide) (.inr (.inl rfl))
example : mzd_col_swap_in_rows exW 0 100 8191 16384 = .error .oob :=
  C112_in_rows_violated exW_made (by decide) (by decide) (by decide) (by decide) (by decide) (by decide) (by decide)
example : mzd_init_window (exM 8192) 8192 0 8192 1048576 = .error .abort := C112_window_violated (by decide) (by decide) (ex_init 8192 (by decide)) rfl
example : mzd_row (exM 262144) 131072 = .error .overflow := C112_row_violated (.init (by decide) (by decide) (ex_init 262144 (by decide))) (by decide)

end WB.m4l
