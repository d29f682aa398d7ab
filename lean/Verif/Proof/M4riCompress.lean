import Verif.Model.M4riCompress
import Verif.Proof.M4riTri

/-!
# The compression of `L` (helper lemmas)
-/
namespace WB.m4w

variable {A : Mzd} {r1 n1 r2 : Nat}

theorem xor_bits_in {M : Mzd} (w : M.Wf) {i y n : Nat} (hi : i < M.nrows) (hy : y % 64 + n ≤ 64) (hw : y / 64 < M.width) (v : Word) :
    Ok (mzd_xor_bits M i y n v) fun N => Sh M N ∧ ∀ a b, N.bit a b = (M.bit a b ^^ (decide (a = i ∧ b / 64 = y / 64 ∧ y ≤ b) && v.getLsbD (b - y))) := by
  unfold mzd_xor_bits
  have hat := w.at (i := i) (j := y / 64) hi hw
  dsimp only
  rw [get_eq hat, C_ok_bind, put_eq _ hat, C_ok_bind, if_neg (by omega), Ok.pure_iff]
  refine ⟨Sh.set _ _ _ _, fun a b => ?_⟩
  rw [bit_set]
  by_cases h : a = i ∧ b / 64 = y / 64
  · rw [if_pos h, BitVec.getLsbD_xor, BitVec.getLsbD_shiftLeft, decide_eq_true (show b % 64 < 64 by omega), Bool.true_and]
    have e : M.bit a b = (M.word i (y / 64)).getLsbD (b % 64) := by unfold Mzd.bit; rw [h.1, h.2]
    rw [e]
    by_cases hb : y ≤ b
    · rw [decide_eq_true (show a = i ∧ b / 64 = y / 64 ∧ y ≤ b from ⟨h.1, h.2, hb⟩), decide_eq_false (show ¬ b % 64 < y % 64 by omega), show b % 64 - y % 64 = b - y by omega]
      simp
    · rw [decide_eq_false (show ¬ (a = i ∧ b / 64 = y / 64 ∧ y ≤ b) from fun g => hb g.2.2), decide_eq_true (show b % 64 < y % 64 by omega)]
      simp
  · rw [if_neg h, decide_eq_false (show ¬ (a = i ∧ b / 64 = y / 64 ∧ y ≤ b) from fun g => h ⟨g.1, g.2.1⟩)]
    simp

/-- The rows with pivots. -/
theorem compress_top (w : A.Wf) (hr : r1 < n1) (hn : n1 + r2 ≤ A.ncols) (hm : r1 + r2 ≤ A.nrows)
    (hE : ∀ i b, r1 ≤ i → i < A.nrows → r1 ≤ b → b < n1 → A.bit i b = false) :
    Ok (compressTop r1 n1 r2 A) fun N => Sh A N ∧ ∀ a b, N.bit a b =
      if r1 ≤ a ∧ a < r1 + r2 ∧ r1 ≤ b ∧ b < n1 + min r2 (a - r1 + 1) then (if b < r1 + min r2 (a - r1 + 1) then A.bit a (b - r1 + n1) else false) else A.bit a b := by
  unfold compressTop
  refine Ok.forUp (P := fun t N => Sh A N ∧ ∀ a b, N.bit a b =
    if r1 ≤ a ∧ a < r1 + r2 ∧ r1 ≤ b ∧ b < n1 + min t (a - r1 + 1) then (if b < r1 + min t (a - r1 + 1) then A.bit a (b - r1 + n1) else false) else A.bit a b) (Nat.zero_le _) ?_ ?_ (fun N h => h)
  · refine ⟨Sh.refl A, fun a b => ?_⟩
    by_cases h : r1 ≤ a ∧ a < r1 + r2 ∧ r1 ≤ b ∧ b < n1 + min 0 (a - r1 + 1)
    · rw [if_pos h, if_neg (by omega)]
      exact hE a b h.1 (by omega) h.2.2.1 (by omega)
    · rw [if_neg h]
  · intro t N _ ht ⟨sh, hN⟩
    refine (colSwap_spec (sh.wf w) (x := r1 + t) (y := n1 + t) (lo := r1 + t) (hi := r1 + r2) (by rw [sh.ncols]; omega) (by rw [sh.ncols]; omega) (by rw [sh.nrows]; exact hm)).mono ?_
    intro D ⟨sD, hD⟩
    refine ⟨sh.trans sD, fun a b => ?_⟩
    rw [hD]
    by_cases ha : r1 + t ≤ a ∧ a < r1 + r2
    · rw [if_pos ha, hN, Equiv.swap_apply_def, show min t (a - r1 + 1) = t by omega, show min (t + 1) (a - r1 + 1) = t + 1 by omega]
      by_cases h1 : b = r1 + t
      · rw [if_pos h1, if_neg (by omega), if_pos (by omega), if_pos (by omega), h1]
        congr 1; omega
      · rw [if_neg h1]
        by_cases h2 : b = n1 + t
        · rw [if_pos h2, if_pos (by omega), if_neg (by omega), if_pos (by omega), if_neg (by omega)]
        · rw [if_neg h2]
          split_ifs <;> first | rfl | omega
    · rw [if_neg ha, hN]
      by_cases h : r1 ≤ a ∧ a < r1 + r2
      · rw [show min (t + 1) (a - r1 + 1) = min t (a - r1 + 1) by omega]
      · rw [if_neg (by omega), if_neg (by omega)]

/-- The words in the middle of a row. -/
theorem compress_words (w : A.Wf) (hr : r1 < n1) (h64 : n1 % 64 = 0) (hn : n1 + r2 ≤ A.ncols) {i : Nat} (hi : i < A.nrows) :
    Ok (compressWords r1 n1 r2 i A) fun N => Sh A N ∧ ∀ a b, N.bit a b =
      if a = i ∧ r1 + (64 - r1 % 64) ≤ b ∧ b < 64 * ((r1 + r2) / 64) then A.bit i (b - r1 + n1) else A.bit a b := by
  have hwd : A.width = (A.ncols + 63) / 64 := rfl
  unfold compressWords
  simp only []
  rw [show n1 + (r1 + (64 - r1 % 64)) - r1 = n1 + (64 - r1 % 64) by omega]
  have hb : ∀ q p, p < 64 → A.bit i (64 * q + p) = (A.word i q).getLsbD p := fun q p hp => by
    unfold Mzd.bit
    rw [show (64 * q + p) / 64 = q by omega, show (64 * q + p) % 64 = p by omega]
  have key : ∀ (W : Nat → Word), (∀ q p, p < 64 → (r1 + (64 - r1 % 64)) / 64 ≤ q → q < (r1 + r2) / 64 → (W q).getLsbD p = A.bit i (64 * q + p - r1 + n1)) →
      ∀ N : Mzd, Sh A N → (∀ a b, N.word a b = if a = i ∧ (r1 + (64 - r1 % 64)) / 64 ≤ b ∧ b < (r1 + r2) / 64 then W b else A.word a b) →
      ∀ a b, N.bit a b = if a = i ∧ r1 + (64 - r1 % 64) ≤ b ∧ b < 64 * ((r1 + r2) / 64) then A.bit i (b - r1 + n1) else A.bit a b := by
    intro W hW N _ hN a b
    rw [bit_of_word hN]
    by_cases h : a = i ∧ r1 + (64 - r1 % 64) ≤ b ∧ b < 64 * ((r1 + r2) / 64)
    · rw [if_pos (by omega), if_pos h, hW _ _ (by omega) (by omega) (by omega)]
      congr 1; omega
    · rw [if_neg (by omega), if_neg h]
  by_cases hrest : (64 - r1 % 64) % 64 = 0
  · simp only [if_pos hrest]
    refine (row_loop (fun q => A.word i ((n1 + (64 - r1 % 64)) / 64 + (q - (r1 + (64 - r1 % 64)) / 64))) w hi (hi := (r1 + r2) / 64) (by omega) ?_).mono
      fun N ⟨sh, hN⟩ => ⟨sh, key _ ?_ N sh hN⟩
    · intro j N h1 h2 sh hN
      have hat := (sh.wf w).at (i := i) (j := (n1 + (64 - r1 % 64)) / 64 + (j - (r1 + (64 - r1 % 64)) / 64)) (by rw [sh.nrows]; exact hi) (by rw [sh.width]; omega)
      rw [get_eq hat, C_ok_bind, hN, if_neg (by omega)]
    · intro q p hp h1 h2
      rw [← hb _ _ hp]
      congr 1; omega
  · simp only [if_neg hrest]
    refine (row_loop (fun q => (A.word i ((n1 + (64 - r1 % 64)) / 64 + (q - (r1 + (64 - r1 % 64)) / 64)) >>> (64 - r1 % 64)) |||
      (A.word i ((n1 + (64 - r1 % 64)) / 64 + (q - (r1 + (64 - r1 % 64)) / 64) + 1) <<< (64 - (64 - r1 % 64)))) w hi (hi := (r1 + r2) / 64) (by omega) ?_).mono
      fun N ⟨sh, hN⟩ => ⟨sh, key _ ?_ N sh hN⟩
    · intro j N h1 h2 sh hN
      have hat := (sh.wf w).at (i := i) (j := (n1 + (64 - r1 % 64)) / 64 + (j - (r1 + (64 - r1 % 64)) / 64)) (by rw [sh.nrows]; exact hi) (by rw [sh.width]; omega)
      have hat' := (sh.wf w).at (i := i) (j := (n1 + (64 - r1 % 64)) / 64 + (j - (r1 + (64 - r1 % 64)) / 64) + 1) (by rw [sh.nrows]; exact hi) (by rw [sh.width]; omega)
      rw [get_eq hat, C_ok_bind, get_eq hat', C_ok_bind, hN, if_neg (by omega), hN, if_neg (by omega)]
    · intro q p hp h1 h2
      rw [BitVec.getLsbD_or, BitVec.getLsbD_ushiftRight, BitVec.getLsbD_shiftLeft, decide_eq_true hp, Bool.true_and]
      by_cases hs : p < r1 % 64
      · rw [decide_eq_true (show p < 64 - (64 - r1 % 64) by omega), ← hb _ _ (show 64 - r1 % 64 + p < 64 by omega)]
        simp only [Bool.not_true, Bool.false_and, Bool.or_false]
        congr 1; omega
      · rw [decide_eq_false (show ¬ p < 64 - (64 - r1 % 64) by omega), BitVec.getLsbD_of_ge _ _ (show 64 ≤ 64 - r1 % 64 + p by omega), ← hb _ _ (show p - (64 - (64 - r1 % 64)) < 64 by omega)]
        simp only [Bool.not_false, Bool.true_and, Bool.false_or]
        congr 1; omega

/-- A row without a pivot. -/
theorem compress_row (w : A.Wf) (hr : r1 < n1) (h64 : n1 % 64 = 0) (hn : n1 + r2 ≤ A.ncols) (hn' : n1 < A.ncols) {i : Nat} (hi : i < A.nrows) :
    Ok (compressRow r1 n1 r2 i A) fun N => Sh A N ∧ ∀ a b, N.bit a b =
      if a = i ∧ r1 ≤ b ∧ b < 64 * ((n1 + r2 + 63) / 64) then (if b < r1 + r2 then A.bit i (b - r1 + n1) else false) else A.bit a b := by
  have hwd : A.width = (A.ncols + 63) / 64 := rfl
  unfold compressRow
  simp only []
  refine Ok.bind (read_bits w hi (x := i) (y := n1) (n := 64 - r1 % 64) (by omega) (by omega) (by omega)) ?_
  intro v hv
  refine Ok.bind (clear_bits_in w (i := i) (y := r1) (n := 64 - r1 % 64) hi (by omega) (by omega) (by omega)) ?_
  intro B ⟨sB, hB⟩
  refine Ok.bind (xor_bits_in (sB.wf w) (i := i) (y := r1) (n := 64 - r1 % 64) (by rw [sB.nrows]; exact hi) (by omega) (by rw [sB.width]; omega) v) ?_
  intro D ⟨sD, hD⟩
  have s2 := sB.trans sD
  have hD' : ∀ a b, D.bit a b = if a = i ∧ r1 ≤ b ∧ b < r1 + (64 - r1 % 64) then A.bit i (b - r1 + n1) else A.bit a b := by
    intro a b
    rw [hD, hB]
    by_cases h : a = i ∧ r1 ≤ b ∧ b < r1 + (64 - r1 % 64)
    · rw [if_pos h, if_pos h, decide_eq_true (show a = i ∧ b / 64 = r1 / 64 ∧ r1 ≤ b by omega), hv, decide_eq_true (show b - r1 < 64 - r1 % 64 by omega)]
      simp only [Bool.true_and, Bool.false_bne]
      congr 1; omega
    · rw [if_neg h, if_neg h, decide_eq_false (show ¬ (a = i ∧ b / 64 = r1 / 64 ∧ r1 ≤ b) by omega)]
      simp
  refine Ok.bind (compress_words (s2.wf w) hr h64 (by rw [s2.ncols]; exact hn) (i := i) (by rw [s2.nrows]; exact hi)) ?_
  intro E ⟨sE, hE⟩
  have s3 := s2.trans sE
  have hE' : ∀ a b, E.bit a b = if a = i ∧ r1 ≤ b ∧ b < max (r1 + (64 - r1 % 64)) (64 * ((r1 + r2) / 64)) then A.bit i (b - r1 + n1) else A.bit a b := by
    intro a b
    rw [hE, hD', hD']
    by_cases h : a = i ∧ r1 + (64 - r1 % 64) ≤ b ∧ b < 64 * ((r1 + r2) / 64)
    · rw [if_pos h, if_neg (by omega), if_pos (by omega)]
    · rw [if_neg h]
      exact if_congr (by omega) rfl rfl
  have hF : Ok (compressLast r1 n1 r2 i E)
      fun N => Sh A N ∧ ∀ a b, (b < r1 + r2 ∨ 64 * ((r1 + r2) / 64 + 1) ≤ b ∨ a ≠ i) → N.bit a b = if a = i ∧ r1 ≤ b ∧ b < r1 + r2 then A.bit i (b - r1 + n1) else
        if a = i ∧ b < 64 * ((r1 + r2) / 64 + 1) ∧ r1 + r2 ≤ b then false else A.bit a b := by
    unfold compressLast
    simp only []
    generalize hj : max (r1 + (64 - r1 % 64)) (64 * ((r1 + r2) / 64)) = j at hE' ⊢
    by_cases h : j < r1 + r2
    · rw [if_pos h]
      refine Ok.bind (read_bits (s3.wf w) (x := i) (y := n1 + j - r1) (n := r1 + r2 - j) (by rw [s3.nrows]; exact hi) (by omega) (by omega) (by rw [s3.width]; omega)) ?_
      intro v hv
      have hat := (s3.wf w).at (i := i) (j := j / 64) (by rw [s3.nrows]; exact hi) (by rw [s3.width]; omega)
      rw [put_eq _ hat, Ok.ok_iff]
      refine ⟨s3.trans (Sh.set _ _ _ _), fun a b hab => ?_⟩
      rw [bit_set]
      by_cases g : a = i ∧ b / 64 = j / 64
      · rw [if_pos g, hv, hE', if_neg (by omega)]
        rw [decide_eq_true (show b % 64 < r1 + r2 - j by omega), if_pos (by omega), Bool.true_and]
        congr 1; omega
      · rw [if_neg g, hE']
        split_ifs <;> first | rfl | omega
    · rw [if_neg h, Ok.pure_iff]
      refine ⟨s3, fun a b hab => ?_⟩
      rw [hE']
      split_ifs <;> first | rfl | omega
  refine Ok.bind hF ?_
  intro G ⟨s4, hG⟩
  refine Ok.bind (clear_bits_in (s4.wf w) (i := i) (y := r1 + r2) (n := 64 - (r1 + r2) % 64) (by rw [s4.nrows]; exact hi) (by omega) (by omega) (by rw [s4.width]; omega)) ?_
  intro H ⟨s5, hH⟩
  have s6 := s4.trans s5
  refine (zero_words (s6.wf w) (i := i) (lo := (r1 + r2) / 64 + 1) (hi := (n1 + r2 + 63) / 64) (by rw [s6.nrows]; exact hi) (by rw [s6.width]; omega)).mono ?_
  intro K ⟨s7, hK⟩
  refine ⟨s6.trans s7, fun a b => ?_⟩
  rw [hK, hH]
  by_cases h1 : a = i ∧ (r1 + r2) / 64 + 1 ≤ b / 64 ∧ b / 64 < (n1 + r2 + 63) / 64
  · rw [if_pos h1, if_pos (by omega), if_neg (by omega)]
  · rw [if_neg h1]
    by_cases h2 : a = i ∧ r1 + r2 ≤ b ∧ b < r1 + r2 + (64 - (r1 + r2) % 64)
    · rw [if_pos h2, if_pos (by omega), if_neg (by omega)]
    · rw [if_neg h2, hG a b (by omega)]
      split_ifs <;> first | rfl | omega

/-- All of `_mzd_compress_l`. -/
theorem compress_spec (w : A.Wf) (hr : r1 < n1) (h64 : n1 % 64 = 0) (hn : n1 + r2 ≤ A.ncols) (hn' : n1 < A.ncols) (hm : r1 + r2 ≤ A.nrows)
    (hE : ∀ i b, r1 ≤ i → i < A.nrows → r1 ≤ b → b < n1 → A.bit i b = false) :
    Ok (_mzd_compress_l A r1 n1 r2) fun N => Sh A N ∧ ∀ a b, N.bit a b =
      if r1 ≤ a ∧ a < r1 + r2 ∧ r1 ≤ b ∧ b < n1 + min r2 (a - r1 + 1) then (if b < r1 + min r2 (a - r1 + 1) then A.bit a (b - r1 + n1) else false)
      else if r1 + r2 ≤ a ∧ a < A.nrows ∧ r1 ≤ b ∧ b < 64 * ((n1 + r2 + 63) / 64) then (if b < r1 + r2 then A.bit a (b - r1 + n1) else false) else A.bit a b := by
  unfold _mzd_compress_l
  rw [if_neg (by omega)]
  refine Ok.bind (compress_top w hr hn hm hE) ?_
  intro B ⟨sB, hB⟩
  rw [sB.nrows]
  refine Ok.forUp (P := fun k N => Sh A N ∧ ∀ a b, N.bit a b =
      if r1 ≤ a ∧ a < r1 + r2 ∧ r1 ≤ b ∧ b < n1 + min r2 (a - r1 + 1) then (if b < r1 + min r2 (a - r1 + 1) then A.bit a (b - r1 + n1) else false)
      else if r1 + r2 ≤ a ∧ a < k ∧ r1 ≤ b ∧ b < 64 * ((n1 + r2 + 63) / 64) then (if b < r1 + r2 then A.bit a (b - r1 + n1) else false) else A.bit a b) hm ?_ ?_ (fun N h => h)
  · refine ⟨sB, fun a b => ?_⟩
    rw [hB]
    split_ifs <;> first | rfl | omega
  · intro i N h1 h2 ⟨sh, hN⟩
    refine (compress_row (sh.wf w) hr h64 (by rw [sh.ncols]; exact hn) (by rw [sh.ncols]; exact hn') (i := i) (by rw [sh.nrows]; exact h2)).mono ?_
    intro D ⟨sD, hD⟩
    refine ⟨sh.trans sD, fun a b => ?_⟩
    rw [hD]
    by_cases ha : a = i
    · rw [hN, hN, ha]
      split_ifs <;> first | rfl | omega
    · rw [if_neg (fun h => ha h.1), hN]
      split_ifs <;> first | rfl | omega

end WB.m4w
