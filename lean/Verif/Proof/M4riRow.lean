import Verif.Model.M4riEch
import Verif.Proof.M4riTable

/-!
# Exchanging and adding rows in M4RI (helper lemmas)
-/
namespace WB.m4w

open WB.cmp (Mem Mem2)

theorem forUp_none {σ : Type} {lo hi : Nat} (h : hi ≤ lo) (s : σ) (f : Nat → σ → C σ) : forUp lo hi s f = pure s := by
  unfold forUp; rw [show hi - lo = 0 by omega]; rfl

theorem bit_def (M : Mzd) {a b w : Nat} (h : b / 64 = w) : (M.word a w).getLsbD (b % 64) = M.bit a b := by unfold Mzd.bit; rw [h]

/-- Row `dst` after row `src` has been added to it from column `off` on. -/
def addBit (f : Nat → Nat → Bool) (dst src off n : Nat) (a b : Nat) : Bool :=
  if a = dst ∧ off ≤ b ∧ b < n then f dst b ^^ f src b else f a b

theorem row_add {M : Mzd} (w : M.Wf) {dst src off : Nat} (hd : dst < M.nrows) (hs : src < M.nrows) (ho : off < M.ncols) (hne : dst ≠ src) :
    Ok (mzd_row_add_offset M dst src off) fun N => Sh M N ∧ ∀ a b, N.bit a b = addBit M.bit dst src off M.ncols a b := by
  unfold mzd_row_add_offset
  rw [if_neg (by omega)]
  simp only []
  have hw := lt_width ho
  have h0 : 0 < M.ncols := by omega
  have at1 : ∀ N, Sh M N → ∀ j, j < M.width → (dst < N.mem.rows ∧ N.off + j < N.mem.cols) ∧ (src < N.mem.rows ∧ N.off + j < N.mem.cols) :=
    fun N sh j hj => ⟨(sh.wf w).at (by rw [sh.nrows]; exact hd) (by rw [sh.width]; omega), (sh.wf w).at (by rw [sh.nrows]; exact hs) (by rw [sh.width]; omega)⟩
  have t0 := at1 M (Sh.refl M) _ hw
  rw [get_eq t0.1, C_ok_bind, get_eq t0.2, C_ok_bind, put_eq _ t0.1, C_ok_bind]
  generalize hx : M.word dst (off / 64) ^^^ M.word src (off / 64) &&& rightMask (64 - off % 64) = x
  have sh1 := Sh.set M dst (off / 64) x
  have hM1 : ∀ a b, (M.set dst (off / 64) x).word a b = if a = dst ∧ b = off / 64 then x else M.word a b := word_set M _ _ _
  generalize M.set dst (off / 64) x = M1 at sh1 hM1
  refine Ok.bind (P := fun N => Sh M N ∧ ∀ a b, N.word a b =
      if a = dst ∧ off / 64 + 1 ≤ b ∧ b < off / 64 + 1 + (M.width - off / 64 - 1) then M.word dst b ^^^ M.word src b else M1.word a b) ?_ ?_
  · refine Ok.forUp (P := fun i N => Sh M N ∧ ∀ a b, N.word a b =
      if a = dst ∧ off / 64 + 1 ≤ b ∧ b < off / 64 + 1 + i then M.word dst b ^^^ M.word src b else M1.word a b) (Nat.zero_le _)
      ⟨sh1, fun a b => by rw [if_neg (by omega)]⟩ ?_ (fun N h => h)
    intro i N _ hi ⟨sh, hN⟩
    have t := at1 N sh (off / 64 + 1 + i) (by omega)
    rw [get_eq t.1, C_ok_bind, get_eq t.2, C_ok_bind, put_eq _ t.1, Ok.ok_iff]
    refine ⟨sh.trans (Sh.set _ _ _ _), fun a b => ?_⟩
    rw [word_set, hN dst, hN src, if_neg (show ¬ (dst = dst ∧ _ ∧ off / 64 + 1 + i < off / 64 + 1 + i) by omega), if_neg (show ¬ (src = dst ∧ _) by omega), hM1, hM1,
      if_neg (show ¬ (dst = dst ∧ off / 64 + 1 + i = off / 64) by omega), if_neg (show ¬ (src = dst ∧ _) by omega)]
    by_cases hab : a = dst ∧ b = off / 64 + 1 + i
    · rw [if_pos hab, if_pos (by omega), hab.2]
    · rw [if_neg hab, hN]
      exact if_congr (by omega) rfl rfl
  intro N ⟨sh, hN⟩
  have hlast : off / 64 + (M.width - off / 64 - 1) = M.width - 1 := by omega
  rw [hlast]
  have t := at1 N sh (M.width - 1) (by omega)
  rw [get_eq t.1, C_ok_bind, get_eq t.2, C_ok_bind, put_eq _ t.1, Ok.ok_iff]
  refine ⟨sh.trans (Sh.set _ _ _ _), fun a b => ?_⟩
  have hsrc : ∀ j, N.word src j = M.word src j := fun j => by
    rw [hN, if_neg (show ¬ (src = dst ∧ _) by omega), hM1, if_neg (show ¬ (src = dst ∧ _) by omega)]
  have hNb : N.bit a b = if a = dst ∧ off / 64 ≤ b / 64 ∧ b / 64 < M.width then (M.bit dst b ^^ (decide (off ≤ b) && M.bit src b)) else M.bit a b := by
    unfold Mzd.bit
    rw [hN]
    by_cases ha : a = dst
    · subst ha
      by_cases h1 : off / 64 + 1 ≤ b / 64 ∧ b / 64 < M.width
      · rw [if_pos (by omega), if_pos (by omega), BitVec.getLsbD_xor, decide_eq_true (by omega)]
        simp
      · rw [if_neg (by omega), hM1]
        by_cases h2 : b / 64 = off / 64
        · rw [if_pos ⟨rfl, h2⟩, if_pos (by omega), ← hx, BitVec.getLsbD_xor, BitVec.getLsbD_and, rightMask_bit _ _ (Nat.mod_lt _ (by omega)), h2, Bool.and_comm,
            show decide (off % 64 ≤ b % 64 ∧ b % 64 < 64) = decide (off ≤ b) from decide_eq_decide.2 (by omega)]
        · rw [if_neg (by omega), if_neg (by omega)]
    · rw [if_neg (fun h => ha h.1), if_neg (fun h => ha h.1), hM1, if_neg (fun h => ha h.1)]
  rw [bit_set]
  unfold addBit
  by_cases hl : a = dst ∧ b / 64 = M.width - 1
  · obtain ⟨rfl, hl⟩ := hl
    rw [if_pos ⟨rfl, hl⟩, BitVec.getLsbD_xor, BitVec.getLsbD_and, BitVec.getLsbD_not, sh.high, high_bit M hl h0, hsrc, bit_def M hl, bit_def N hl, hNb, if_pos (by omega),
      decide_eq_true (Nat.mod_lt b (by decide : 0 < 64))]
    by_cases hb : b < M.ncols
    · by_cases hob : off ≤ b
      · rw [if_pos ⟨rfl, hob, hb⟩]; simp [hb, hob]
      · rw [if_neg (by omega)]; simp [hb, hob]
    · rw [if_neg (by omega), decide_eq_true (show off ≤ b by omega), decide_eq_false hb]
      cases M.bit a b <;> cases M.bit src b <;> rfl
  · rw [if_neg hl, hNb]
    by_cases ha : a = dst
    · subst ha
      by_cases h1 : off / 64 ≤ b / 64 ∧ b / 64 < M.width
      · have : b < M.ncols := lt_of_not_last (by omega)
        rw [if_pos ⟨rfl, h1⟩]
        by_cases hob : off ≤ b
        · rw [if_pos ⟨rfl, hob, this⟩]; simp [hob]
        · rw [if_neg (by omega)]; simp [hob]
      · rw [if_neg (by omega), if_neg]
        intro h
        have := lt_width h.2.2
        omega
    · rw [if_neg (fun h => ha h.1), if_neg (fun h => ha h.1)]

/-- The rows `p` and `q` exchanged. -/
def swapBit (f : Nat → Nat → Bool) (p q n : Nat) (a b : Nat) : Bool :=
  if b < n then (if a = p then f q b else if a = q then f p b else f a b) else f a b

theorem swapBit_self (f : Nat → Nat → Bool) (p n a b : Nat) : swapBit f p p n a b = f a b := by
  unfold swapBit
  split
  · split
    · rename_i h; rw [h]
    · rfl
  · rfl

theorem row_swap {M : Mzd} (w : M.Wf) {p q : Nat} (hp : p < M.nrows) (hq : q < M.nrows) :
    Ok (mzd_row_swap M p q) fun N => Sh M N ∧ ∀ a b, N.bit a b = swapBit M.bit p q M.ncols a b := by
  unfold mzd_row_swap
  by_cases hpq : p = q
  · rw [if_pos (Or.inl hpq), Ok.pure_iff]
    subst hpq
    exact ⟨Sh.refl M, fun a b => (swapBit_self ..).symm⟩
  by_cases h0 : M.width = 0
  · rw [if_pos (Or.inr h0), Ok.pure_iff]
    refine ⟨Sh.refl M, fun a b => ?_⟩
    unfold swapBit
    rw [if_neg fun h => ?_]
    have := lt_width h
    omega
  rw [if_neg (by omega)]
  simp only []
  have hn : 0 < M.ncols := by unfold Mzd.width at h0; omega
  have at1 : ∀ N, Sh M N → ∀ j, j < M.width → (p < N.mem.rows ∧ N.off + j < N.mem.cols) ∧ (q < N.mem.rows ∧ N.off + j < N.mem.cols) :=
    fun N sh j hj => ⟨(sh.wf w).at (by rw [sh.nrows]; exact hp) (by rw [sh.width]; omega), (sh.wf w).at (by rw [sh.nrows]; exact hq) (by rw [sh.width]; omega)⟩
  refine Ok.bind (P := fun N => Sh M N ∧ ∀ a b, N.word a b = if b < M.width - 1 then (if a = p then M.word q b else if a = q then M.word p b else M.word a b) else M.word a b) ?_ ?_
  · refine Ok.forUp (P := fun i N => Sh M N ∧ ∀ a b, N.word a b = if b < i then (if a = p then M.word q b else if a = q then M.word p b else M.word a b) else M.word a b)
      (Nat.zero_le _) ⟨Sh.refl M, fun a b => by rw [if_neg (by omega)]⟩ ?_ (fun N h => h)
    intro i N _ hi ⟨sh, hN⟩
    have t := at1 N sh i (by omega)
    rw [get_eq t.1, C_ok_bind, get_eq t.2, C_ok_bind, put_eq _ t.1, C_ok_bind]
    have sh2 := sh.trans (Sh.set N p i (N.word q i))
    rw [put_eq _ (at1 _ sh2 i (by omega)).2, Ok.ok_iff]
    refine ⟨sh2.trans (Sh.set _ _ _ _), fun a b => ?_⟩
    rw [word_set, word_set, hN p, hN q, hN a, if_neg (show ¬ i < i by omega), if_neg (show ¬ i < i by omega)]
    by_cases hb : b = i
    · subst hb
      rw [if_pos (show b < b + 1 by omega), if_neg (show ¬ b < b by omega)]
      by_cases ha : a = q
      · rw [if_pos ⟨ha, rfl⟩, if_neg (by omega), if_pos ha]
      · rw [if_neg (by omega)]
        by_cases ha' : a = p
        · rw [if_pos ⟨ha', rfl⟩, if_pos ha']
        · rw [if_neg (by omega), if_neg ha', if_neg ha]
    · rw [if_neg (by omega), if_neg (by omega)]
      exact if_congr (by omega) rfl rfl
  intro N ⟨sh, hN⟩
  have t := at1 N sh (M.width - 1) (by omega)
  rw [get_eq t.1, C_ok_bind, get_eq t.2, C_ok_bind, C_ok_bind, put_eq _ t.1, C_ok_bind]
  generalize hx : (N.word p (M.width - 1) ^^^ N.word q (M.width - 1)) &&& N.high = x
  have sh2 := sh.trans (Sh.set N p (M.width - 1) (N.word p (M.width - 1) ^^^ x))
  have t2 := at1 _ sh2 (M.width - 1) (by omega)
  rw [get_eq t2.2, C_ok_bind, put_eq _ t2.2, Ok.ok_iff]
  refine ⟨sh2.trans (Sh.set _ _ _ _), fun a b => ?_⟩
  have hlast : ∀ a, N.word a (M.width - 1) = M.word a (M.width - 1) := fun a => by rw [hN, if_neg (by omega)]
  rw [bit_set, bit_set, word_set, if_neg (show ¬ (q = p ∧ _) by omega)]
  unfold swapBit
  by_cases hl : b / 64 = M.width - 1
  · have hxb : x.getLsbD (b % 64) = ((M.bit p b ^^ M.bit q b) && decide (b < M.ncols)) := by
      rw [← hx, BitVec.getLsbD_and, BitVec.getLsbD_xor, sh.high, high_bit M hl hn, hlast, hlast, bit_def M hl, bit_def M hl]
    have hNb : N.bit a b = M.bit a b := by rw [← bit_def N hl, hlast, bit_def M hl]
    rw [hlast, hlast, hNb, BitVec.getLsbD_xor, BitVec.getLsbD_xor, bit_def M hl, bit_def M hl, hxb]
    by_cases hb : b < M.ncols
    · rw [if_pos hb, decide_eq_true hb, Bool.and_true]
      by_cases ha : a = q
      · rw [if_pos ⟨ha, hl⟩, if_neg (by omega), if_pos ha]
        cases M.bit p b <;> cases M.bit q b <;> rfl
      · rw [if_neg (by omega)]
        by_cases ha' : a = p
        · rw [if_pos ⟨ha', hl⟩, if_pos ha']
          cases M.bit p b <;> cases M.bit q b <;> rfl
        · rw [if_neg (by omega), if_neg ha', if_neg ha]
    · rw [if_neg hb, decide_eq_false hb, Bool.and_false, Bool.xor_false, Bool.xor_false]
      by_cases ha : a = q
      · rw [if_pos ⟨ha, hl⟩, ha]
      · rw [if_neg (by omega)]
        by_cases ha' : a = p
        · rw [if_pos ⟨ha', hl⟩, ha']
        · rw [if_neg (by omega)]
  · rw [if_neg (by omega), if_neg (by omega)]
    have hNb : N.bit a b = (N.word a (b / 64)).getLsbD (b % 64) := rfl
    rw [hNb, hN]
    by_cases hb : b < M.ncols
    · have := lt_width hb
      rw [if_pos (by omega), if_pos hb]
      split
      · rfl
      · split <;> rfl
    · rw [if_neg hb, if_neg]
      · rfl
      · intro h
        exact hb (lt_of_not_last h)

end WB.m4w
