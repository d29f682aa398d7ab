import Verif.SpecM4riWord
import Verif.Proof.Cmp

/-!
# Words, bits and rows of M4RI's matrices (helper lemmas)
-/
namespace WB.m4w

open WB.cmp (Mem Mem2)

theorem C_ok_bind {α β : Type} (a : α) (f : α → C β) : ((Except.ok a : C α) >>= f) = f a := rfl

/-- `N` is `M` with other words. -/
structure Sh (M N : Mzd) : Prop where
  nrows : N.nrows = M.nrows
  ncols : N.ncols = M.ncols
  off : N.off = M.off
  rows : N.mem.rows = M.mem.rows
  cols : N.mem.cols = M.mem.cols
  before : ∀ a b, b < M.off → N.mem.cell a b = M.mem.cell a b

theorem Sh.refl (M : Mzd) : Sh M M := ⟨rfl, rfl, rfl, rfl, rfl, fun _ _ _ => rfl⟩

theorem Sh.trans {M N P : Mzd} (h : Sh M N) (h' : Sh N P) : Sh M P :=
  ⟨h'.nrows.trans h.nrows, h'.ncols.trans h.ncols, h'.off.trans h.off, h'.rows.trans h.rows, h'.cols.trans h.cols,
    fun a b hb => (h'.before a b (by rw [h.off]; exact hb)).trans (h.before a b hb)⟩

theorem Sh.width {M N : Mzd} (h : Sh M N) : N.width = M.width := by unfold Mzd.width; rw [h.ncols]

theorem Sh.high {M N : Mzd} (h : Sh M N) : N.high = M.high := by unfold Mzd.high; rw [h.ncols]

theorem Sh.wf {M N : Mzd} (h : Sh M N) (w : M.Wf) : N.Wf :=
  ⟨by rw [h.nrows, h.rows]; exact w.rows, by rw [h.off, h.width, h.cols]; exact w.cols⟩

/-- `M` after `M->rows[i][j] = x`. -/
def Mzd.set (M : Mzd) (i j : Nat) (x : Word) : Mzd :=
  { M with mem := ⟨M.mem.rows, M.mem.cols, fun k l => if k = i ∧ l = M.off + j then x else M.mem.cell k l⟩ }

theorem Sh.set (M : Mzd) (i j : Nat) (x : Word) : Sh M (M.set i j x) :=
  ⟨rfl, rfl, rfl, rfl, rfl, fun a b hb => if_neg (by omega)⟩

theorem word_set (M : Mzd) (i j : Nat) (x : Word) (a b : Nat) :
    (M.set i j x).word a b = if a = i ∧ b = j then x else M.word a b := by
  unfold Mzd.word Mzd.set
  by_cases h : a = i ∧ b = j
  · rw [if_pos h]; exact if_pos ⟨h.1, by show M.off + b = M.off + j; omega⟩
  · rw [if_neg h]
    exact if_neg (show ¬ (a = i ∧ M.off + b = M.off + j) by omega)

theorem get_eq {M : Mzd} {i j : Nat} (h : i < M.mem.rows ∧ M.off + j < M.mem.cols) : M.get i j = .ok (M.word i j) := if_pos h

theorem put_eq {M : Mzd} {i j : Nat} (x : Word) (h : i < M.mem.rows ∧ M.off + j < M.mem.cols) : M.put i j x = .ok (M.set i j x) := by
  unfold Mzd.put Mem2.put
  rw [if_pos h]
  rfl

@[simp] theorem Ok_get (M : Mzd) (i j : Nat) (Q : Word → Prop) :
    Ok (M.get i j) Q ↔ (i < M.mem.rows ∧ M.off + j < M.mem.cols) ∧ Q (M.word i j) := by
  unfold Mzd.get
  rw [Mem2.Ok_get]
  rfl

@[simp] theorem Ok_put (M : Mzd) (i j : Nat) (x : Word) (Q : Mzd → Prop) :
    Ok (M.put i j x) Q ↔ (i < M.mem.rows ∧ M.off + j < M.mem.cols) ∧ Q (M.set i j x) := by
  unfold Mzd.put
  rw [Ok.bind_iff, Mem2.Ok_put]
  simp only [Ok.pure_iff]
  rfl

theorem Mzd.Wf.at {M : Mzd} (w : M.Wf) {i j : Nat} (hi : i < M.nrows) (hj : j < M.width) :
    i < M.mem.rows ∧ M.off + j < M.mem.cols := ⟨Nat.lt_of_lt_of_le hi w.rows, by have := w.cols; omega⟩

/-- A loop that writes the words `lo, …, hi - 1` of row `i`. -/
theorem row_loop {M : Mzd} {i lo hi : Nat} {f : Nat → Mzd → C Mzd} (F : Nat → Word) (w : M.Wf) (hi' : i < M.nrows) (hw : hi ≤ M.width)
    (hf : ∀ j N, lo ≤ j → j < hi → Sh M N → (∀ a b, N.word a b = if a = i ∧ lo ≤ b ∧ b < j then F b else M.word a b) →
      f j N = N.put i j (F j)) :
    Ok (forUp lo hi M f) fun N => Sh M N ∧ ∀ a b, N.word a b = if a = i ∧ lo ≤ b ∧ b < hi then F b else M.word a b := by
  by_cases hl : lo ≤ hi
  · refine Ok.forUp (P := fun j N => Sh M N ∧ ∀ a b, N.word a b = if a = i ∧ lo ≤ b ∧ b < j then F b else M.word a b) hl
      ⟨Sh.refl M, fun a b => by rw [if_neg (by omega)]⟩ ?_ (fun N h => h)
    intro j N h1 h2 ⟨sh, hN⟩
    rw [hf j N h1 h2 sh hN]
    have hat := (sh.wf w).at (i := i) (j := j) (by rw [sh.nrows]; exact hi') (by rw [sh.width]; omega)
    rw [Ok_put]
    refine ⟨hat, sh.trans (Sh.set _ _ _ _), fun a b => ?_⟩
    rw [word_set, hN]
    by_cases hab : a = i ∧ b = j
    · rw [if_pos hab, if_pos ⟨hab.1, by omega, by omega⟩, hab.2]
    · rw [if_neg hab]
      by_cases h : a = i ∧ lo ≤ b ∧ b < j
      · rw [if_pos h, if_pos ⟨h.1, h.2.1, by omega⟩]
      · rw [if_neg h, if_neg (by omega)]
  · have : forUp lo hi M f = pure M := by unfold forUp; rw [show hi - lo = 0 by omega]; rfl
    rw [this]
    exact (Ok.pure_iff _ _).2 ⟨Sh.refl M, fun a b => by rw [if_neg (by omega)]⟩

/-! ## Masks -/

theorem leftMask_bit (n b : Nat) (hn : n ≤ 64) : (leftMask n).getLsbD b = decide (b < 64 ∧ (n = 0 ∨ b < n)) := by
  have : ffff = BitVec.allOnes 64 := by decide
  unfold leftMask
  rw [this, BitVec.getLsbD_ushiftRight, BitVec.getLsbD_allOnes, decide_eq_decide]
  by_cases h : n = 0
  · subst h; simp
  · rw [Nat.mod_eq_of_lt (by omega)]
    omega

theorem rightMask_bit (s b : Nat) (hs : s < 64) : (rightMask (64 - s)).getLsbD b = decide (s ≤ b ∧ b < 64) := by
  have : ffff = BitVec.allOnes 64 := by decide
  unfold rightMask
  rw [this, BitVec.getLsbD_shiftLeft, BitVec.getLsbD_allOnes, show 64 - (64 - s) = s by omega, Bool.eq_iff_iff]
  simp only [Bool.and_eq_true, Bool.not_eq_true', decide_eq_true_eq, decide_eq_false_iff_not]
  omega

theorem high_bit (M : Mzd) {j : Nat} (hj : j / 64 = M.width - 1) (h0 : 0 < M.ncols) : M.high.getLsbD (j % 64) = decide (j < M.ncols) := by
  unfold Mzd.high
  rw [leftMask_bit _ _ (by omega), decide_eq_decide]
  unfold Mzd.width at hj
  omega

theorem width_pos {M : Mzd} (h0 : 0 < M.ncols) : 0 < M.width := by unfold Mzd.width; omega

theorem lt_width {M : Mzd} {j : Nat} (h : j < M.ncols) : j / 64 < M.width := by unfold Mzd.width; omega

theorem lt_of_not_last {M : Mzd} {j : Nat} (h : j / 64 < M.width - 1) : j < M.ncols := by unfold Mzd.width at h; omega

/-! ## Single bits and groups of bits -/

theorem bit_ext {x y : Word} (h : ∀ b < 64, x.getLsbD b = y.getLsbD b) : x = y := BitVec.eq_of_getLsbD_eq h

theorem one_shift_bit (s b : Nat) (hs : s < 64) : ((1#64) <<< s).getLsbD b = decide (b = s) := by
  rw [BitVec.getLsbD_shiftLeft, Bool.eq_iff_iff]
  simp only [Bool.and_eq_true, Bool.not_eq_true', decide_eq_true_eq, decide_eq_false_iff_not, BitVec.getLsbD_one]
  omega

theorem and_one_ne (x : Word) (s : Nat) : (((x >>> s) &&& 1#64) != 0#64) = x.getLsbD s := by
  have : (x >>> s) &&& 1#64 = if x.getLsbD s then 1#64 else 0#64 := by
    apply bit_ext
    intro b hb
    rw [BitVec.getLsbD_and, BitVec.getLsbD_ushiftRight]
    by_cases h0 : b = 0
    · subst h0
      cases h : x.getLsbD s <;> simp [h]
    · cases h : x.getLsbD s <;> simp [BitVec.getLsbD_one, h0]
  rw [this]
  cases h : x.getLsbD s <;> rfl

theorem read_bit {M : Mzd} (w : M.Wf) {i j : Nat} (hi : i < M.nrows) (hj : j < M.ncols) : mzd_read_bit M i j = .ok (M.bit i j) := by
  unfold mzd_read_bit
  rw [get_eq (w.at hi (lt_width hj))]
  show Except.ok _ = _
  rw [and_one_ne]
  rfl

theorem write_bit {M : Mzd} (w : M.Wf) {i j : Nat} (hi : i < M.nrows) (hj : j < M.ncols) (v : Bool) :
    Ok (mzd_write_bit M i j v) fun N => Sh M N ∧ ∀ a b, N.bit a b = if a = i ∧ b = j then v else M.bit a b := by
  unfold mzd_write_bit
  have hat := w.at hi (lt_width hj)
  rw [get_eq hat, C_ok_bind, put_eq _ hat, Ok.ok_iff]
  refine ⟨Sh.set _ _ _ _, fun a b => ?_⟩
  unfold Mzd.bit
  rw [word_set]
  by_cases h : a = i ∧ b / 64 = j / 64
  · rw [if_pos h, BitVec.getLsbD_or, BitVec.getLsbD_and, BitVec.getLsbD_and, BitVec.getLsbD_not, one_shift_bit _ _ (Nat.mod_lt _ (by omega))]
    have hv : (-(if v = true then 1#64 else 0#64 : Word)).getLsbD (b % 64) = v := by
      cases v
      · simp
      · have : (-(1#64) : Word) = BitVec.allOnes 64 := by decide
        simp only [if_true, this, BitVec.getLsbD_allOnes]
        exact decide_eq_true (Nat.mod_lt _ (by omega))
    rw [hv]
    by_cases hb : b = j
    · subst hb
      rw [if_pos ⟨h.1, rfl⟩]
      simp
    · rw [if_neg (by omega), decide_eq_false (show ¬ b % 64 = j % 64 by omega)]
      have h64 : b % 64 < 64 := Nat.mod_lt _ (by omega)
      simp only [Bool.not_false, Bool.and_true, Bool.and_false, Bool.or_false, h64, decide_true]
      rw [h.1, h.2]
  · rw [if_neg h, if_neg (fun hh => h ⟨hh.1, by rw [hh.2]⟩)]

theorem read_bits {M : Mzd} (w : M.Wf) {x y n : Nat} (hx : x < M.nrows) (hn : 0 < n) (hn' : n ≤ 64) (hy : (y + n - 1) / 64 < M.width) :
    Ok (mzd_read_bits M x y n) fun v => ∀ b, v.getLsbD b = (decide (b < n) && M.bit x (y + b)) := by
  unfold mzd_read_bits
  simp only []
  rw [if_neg (by omega)]
  by_cases hs : y % 64 + n ≤ 64
  · rw [if_pos hs, get_eq (w.at hx (show y / 64 < M.width by omega)), C_ok_bind, C_pure_eq, Ok.ok_iff]
    intro b
    rw [BitVec.getLsbD_ushiftRight, BitVec.getLsbD_shiftLeft]
    unfold Mzd.bit
    by_cases hb : b < n
    · have h1 : (y + b) / 64 = y / 64 := by omega
      have h2 : 64 - n + b - (64 - (y % 64 + n)) = (y + b) % 64 := by omega
      rw [h1, h2, decide_eq_true hb, decide_eq_true (show 64 - n + b < 64 by omega), decide_eq_false (show ¬ 64 - n + b < 64 - (y % 64 + n) by omega)]
      simp
    · rw [decide_eq_false hb, decide_eq_false (show ¬ 64 - n + b < 64 by omega)]
      simp
  · rw [if_neg hs, get_eq (w.at hx (show y / 64 + 1 < M.width by omega)), C_ok_bind, get_eq (w.at hx (show y / 64 < M.width by omega)),
      C_ok_bind, C_pure_eq, Ok.ok_iff]
    intro b
    rw [BitVec.getLsbD_ushiftRight, BitVec.getLsbD_or, BitVec.getLsbD_shiftLeft, BitVec.getLsbD_ushiftRight]
    unfold Mzd.bit
    by_cases hb : b < n
    · by_cases hc : y % 64 + b < 64
      · have h1 : (y + b) / 64 = y / 64 := by omega
        have h2 : y % 64 + n - 64 + (64 - n + b) = (y + b) % 64 := by omega
        rw [h1, h2, decide_eq_true hb, decide_eq_true (show 64 - n + b < 64 - (y % 64 + n - 64) by omega)]
        simp
      · have h1 : (y + b) / 64 = y / 64 + 1 := by omega
        have h2 : 64 - n + b - (64 - (y % 64 + n - 64)) = (y + b) % 64 := by omega
        have h3 : (M.word x (y / 64)).getLsbD (y % 64 + n - 64 + (64 - n + b)) = false := BitVec.getLsbD_of_ge _ _ (by omega)
        rw [h1, h2, h3, decide_eq_true hb, decide_eq_true (show 64 - n + b < 64 by omega), decide_eq_false (show ¬ 64 - n + b < 64 - (y % 64 + n - 64) by omega)]
        simp
    · have h3 : (M.word x (y / 64)).getLsbD (y % 64 + n - 64 + (64 - n + b)) = false := BitVec.getLsbD_of_ge _ _ (by omega)
      rw [h3, decide_eq_false hb, decide_eq_false (show ¬ 64 - n + b < 64 by omega)]
      simp

end WB.m4w
