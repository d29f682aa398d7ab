import Verif.Model.M4riRowAdd
import Verif.Proof.M4riRow
import Verif.Prop.C132

/-!
# C140 — adding rows, and groups of bits as an index in M4RI (`mzd_row_add`, `mzd_read_bits_int`)
-/
namespace WB.m4w

variable {M : Mzd} {x y n : Nat}

/-- `N` arises from `M` when row `src` is added to row `dst`; nothing else changes, neither other rows nor what lies before the first or behind the last column. -/
def RowAdded (M N : Mzd) (src dst : Nat) : Prop :=
  N.nrows = M.nrows ∧ N.ncols = M.ncols ∧ N.off = M.off ∧ ∀ a b, N.bit a b = if a = dst ∧ b < M.ncols then M.bit dst b ^^ M.bit src b else M.bit a b

/-- C140, full statement: `mzd_row_add` adds a row to another one, or to itself, and `mzd_read_bits_int` returns the number whose bits are the entries of the group, for all groups that
`mzd_read_bits` can read. -/
def C140_statement : Prop :=
  (∀ {M : Mzd} {src dst : Nat}, M.Wf → 0 < M.ncols → src < M.nrows → dst < M.nrows → ∃ N, mzd_row_add M src dst = .ok N ∧ RowAdded M N src dst) ∧
  ∀ {M : Mzd} {x y n : Nat}, InGroup M x y n → ∃ v : Nat, mzd_read_bits_int M x y n = .ok (v : Int) ∧ ∀ t, v.testBit t = (decide (t < n) && M.bit x (y + t))

/-- C140, what holds: a row is added to a different row. -/
theorem C140_add_partial {src dst : Nat} (w : M.Wf) (h0 : 0 < M.ncols) (hs : src < M.nrows) (hd : dst < M.nrows) (hne : dst ≠ src) : ∃ N, mzd_row_add M src dst = .ok N ∧ RowAdded M N src dst := by
  obtain ⟨N, e, sh, hN⟩ := row_add w hd hs h0 hne
  refine ⟨N, e, sh.nrows, sh.ncols, sh.off, fun a b => ?_⟩
  rw [hN]
  unfold addBit
  exact if_congr (by omega) rfl rfl

/-- C140, how it fails: a row that is added to itself becomes zero, as it should, but so do the bits behind the last column, up to the end of the last word.  In a window they are entries of
the matrix around it. -/
theorem C140_itself_violated {i : Nat} (w : M.Wf) (h0 : 0 < M.ncols) (hi : i < M.nrows) :
    ∃ N, mzd_row_add M i i = .ok N ∧ ∀ a b, N.bit a b = if a = i ∧ b < 64 * M.width then false else M.bit a b := by
  show Ok (mzd_row_add M i i) _
  unfold mzd_row_add mzd_row_add_offset
  have hw := width_pos h0
  rw [if_neg (by omega)]
  simp only [Nat.zero_div, Nat.sub_zero, Nat.zero_mod, Nat.zero_add]
  have at1 : ∀ N, Sh M N → ∀ j, j < M.width → (i < N.mem.rows ∧ N.off + j < N.mem.cols) :=
    fun N sh j hj => (sh.wf w).at (by rw [sh.nrows]; exact hi) (by rw [sh.width]; omega)
  have t0 := at1 M (Sh.refl M) 0 hw
  rw [get_eq t0, C_ok_bind, C_ok_bind, put_eq _ t0, C_ok_bind]
  have hr : rightMask 64 = BitVec.allOnes 64 := by decide
  rw [hr, BitVec.and_allOnes, BitVec.xor_self]
  refine Ok.bind (P := fun N => Sh M N ∧ ∀ a b, N.word a b = if a = i ∧ b < M.width then 0#64 else M.word a b) ?_ ?_
  · refine Ok.forUp (P := fun j N => Sh M N ∧ ∀ a b, N.word a b = if a = i ∧ b < j + 1 then 0#64 else M.word a b) (Nat.zero_le _)
      ⟨Sh.set _ _ _ _, fun a b => by rw [word_set]; exact if_congr (by omega) rfl rfl⟩ ?_ (fun N h => ⟨h.1, fun a b => by rw [h.2]; exact if_congr (by omega) rfl rfl⟩)
    intro j N _ hj ⟨sh, hN⟩
    have t := at1 N sh (1 + j) (by omega)
    rw [get_eq t, C_ok_bind, C_ok_bind, put_eq _ t, Ok.ok_iff, BitVec.xor_self]
    refine ⟨sh.trans (Sh.set _ _ _ _), fun a b => ?_⟩
    rw [word_set, hN]
    by_cases h : a = i ∧ b = 1 + j
    · rw [if_pos h, if_pos (by omega)]
    · rw [if_neg h]; exact if_congr (by omega) rfl rfl
  intro N ⟨sh, hN⟩
  have t := at1 N sh (M.width - 1) (by omega)
  rw [get_eq t, C_ok_bind, C_ok_bind, put_eq _ t, Ok.ok_iff, hN i, if_pos ⟨rfl, by omega⟩, BitVec.zero_and, BitVec.xor_self]
  intro a b
  unfold Mzd.bit
  rw [word_set, hN]
  by_cases h : a = i ∧ b < 64 * M.width
  · rw [if_pos h]
    split
    · simp
    · rw [if_pos ⟨h.1, by omega⟩]; simp
  · rw [if_neg h, if_neg (by omega), if_neg (by omega)]

/-- C140: a matrix without columns, or a row that does not exist, stops the program. -/
theorem C140_assert {src dst : Nat} (h : M.ncols = 0 ∨ M.nrows ≤ src ∨ M.nrows ≤ dst) : mzd_row_add M src dst = .error .abort := if_pos (by omega)

/-- C140, what holds: a group of at most 31 bits gives an index below `2 ^ n`. -/
theorem C140_index_partial (h : InGroup M x y n) (hn : n ≤ 31) :
    ∃ v : Nat, mzd_read_bits_int M x y n = .ok (v : Int) ∧ v < 2 ^ n ∧ ∀ t, v.testBit t = (decide (t < n) && M.bit x (y + t)) := by
  obtain ⟨v, e, hv⟩ := C132_read h
  have hb : ∀ t, v.toNat.testBit t = (decide (t < n) && M.bit x (y + t)) := fun t => by rw [← hv t]; rfl
  have hlt : v.toNat < 2 ^ n := Nat.lt_pow_two_of_testBit _ fun t ht => by rw [hb, decide_eq_false (by omega)]; rfl
  have h31 : v.toNat < 2 ^ 31 := lt_of_lt_of_le hlt (Nat.pow_le_pow_right (by decide) hn)
  refine ⟨v.toNat, ?_, hlt, hb⟩
  unfold mzd_read_bits_int
  rw [e]
  show Except.ok ((v.setWidth 32).toInt) = _
  rw [BitVec.toInt_eq_toNat_cond, BitVec.toNat_setWidth, Nat.mod_eq_of_lt (by omega), if_pos (by omega)]

/-- C140, how it fails: for a group of more than 31 bits the result is negative if the entry with number 31 is 1. -/
theorem C140_negative_violated (h : InGroup M x y n) (hn : 32 ≤ n) (h1 : M.bit x (y + 31) = true) : ∃ v : Int, mzd_read_bits_int M x y n = .ok v ∧ v < 0 := by
  obtain ⟨v, e, hv⟩ := C132_read h
  refine ⟨(v.setWidth 32).toInt, by unfold mzd_read_bits_int; rw [e]; rfl, ?_⟩
  have hm : (v.setWidth 32).msb = true := by
    rw [BitVec.msb_eq_getLsbD_last, BitVec.getLsbD_setWidth, hv, h1, decide_eq_true (show 32 - 1 < n by omega)]; rfl
  exact BitVec.toInt_neg_of_msb_true hm

/-! ## Examples -/

/-- A window of 6 columns in a matrix of 64 columns: adding its row to itself clears all 64. -/
def exBeside : Mzd := ⟨2, 6, 0, ⟨2, 1, fun i _ => if i = 0 then 0xffffffffffffffff#64 else 0x0f#64⟩⟩

theorem exBeside_wf : exBeside.Wf := ⟨Nat.le_refl 2, by decide⟩

theorem C140_violated : ¬ C140_statement := by
  intro h
  obtain ⟨N, e, _, _, _, hN⟩ := h.1 exBeside_wf (by decide) (src := 0) (dst := 0) (by decide) (by decide)
  obtain ⟨N', e', hN'⟩ := C140_itself_violated exBeside_wf (by decide) (i := 0) (by decide)
  have hE : N = N' := by rw [e] at e'; exact Except.ok.inj e'
  have h1 := hN 0 10
  rw [hE, hN'] at h1
  exact absurd h1 (by decide)

example : (mzd_row_add exBeside 0 0).map (fun N => (N.word 0 0, N.word 1 0)) = .ok (0#64, 0x0f#64) := by with_unfolding_all rfl
/-- Added to the other row, only the six columns change. -/
example : (mzd_row_add exBeside 0 1).map (fun N => (N.word 0 0, N.word 1 0)) = .ok (0xffffffffffffffff#64, 0x30#64) := by with_unfolding_all rfl
example : ∃ N, mzd_row_add exBeside 0 1 = .ok N ∧ RowAdded exBeside N 0 1 := C140_add_partial exBeside_wf (by decide) (by decide) (by decide) (by decide)
example : mzd_read_bits_int exGroup 0 60 8 = .ok 255 ∧ mzd_read_bits_int exGroup 0 0 32 = .ok (-1) := by
  refine ⟨?_, ?_⟩ <;> with_unfolding_all rfl
example : ∃ v : Int, mzd_read_bits_int exGroup 0 0 40 = .ok v ∧ v < 0 := C140_negative_violated ⟨exGroup_in.1, by decide, by decide, by decide, by decide⟩ (by decide) (by decide)

end WB.m4w
