import Verif.Model.M4riRows
import Verif.Proof.M4riTri

/-!
# Clearing and copying a row, and the test for equality (helper lemmas)
-/
namespace WB.m4w

variable {M A B : Mzd}

/-- What `mzd_row_clear_offset` does below 64. -/
theorem clear_offset_low (w : M.Wf) {r c : Nat} (hr : r < M.nrows) (hc : c < M.ncols) (hl : c < 64) (h0 : 0 < c) :
    Ok (mzd_row_clear_offset M r c) fun N => Sh M N ∧ ∀ a b, N.bit a b = if a = r ∧ (b < c ∨ 64 ≤ b ∧ b < 64 * M.width) then false else M.bit a b := by
  have hwd : M.width = (M.ncols + 63) / 64 := rfl
  have hat := w.at (i := r) (j := 0) hr (by omega)
  unfold mzd_row_clear_offset
  simp only []
  rw [if_pos (show c % 64 ≠ 0 by omega), show c / 64 = 0 by omega, get_eq hat, C_ok_bind, if_neg (by omega)]
  show Ok (M.put r 0 (M.word r 0 &&& ffff <<< c) >>= _) _
  rw [put_eq _ hat, C_ok_bind]
  have sh := Sh.set M r 0 (M.word r 0 &&& ffff <<< c)
  refine (zero_words (sh.wf w) (i := r) (lo := 0 + 1) (by rw [sh.nrows]; exact hr) (Nat.le_refl _)).mono ?_
  intro N ⟨sN, hN⟩
  refine ⟨sh.trans sN, fun a b => ?_⟩
  rw [hN, sh.width, bit_set]
  by_cases h1 : a = r ∧ 0 + 1 ≤ b / 64 ∧ b / 64 < M.width
  · rw [if_pos h1, if_pos (by omega)]
  rw [if_neg h1]
  by_cases h2 : a = r ∧ b / 64 = 0
  · have e : M.bit a b = (M.word r 0).getLsbD (b % 64) := by unfold Mzd.bit; rw [h2.1, h2.2]
    have hf : ffff = BitVec.allOnes 64 := by decide
    rw [if_pos h2, BitVec.getLsbD_and, BitVec.getLsbD_shiftLeft, hf, BitVec.getLsbD_allOnes, e]
    by_cases h3 : b < c
    · rw [if_pos (by omega), decide_eq_true (show b % 64 < c by omega)]; simp
    · rw [if_neg (by omega), decide_eq_false (show ¬ b % 64 < c by omega), decide_eq_true (show b % 64 < 64 by omega), decide_eq_true (show b % 64 - c < 64 by omega)]; simp
  · rw [if_neg h2, if_neg (by omega)]

/-- What `mzd_row_clear_offset` does at the beginning of a word. -/
theorem clear_offset_word (w : M.Wf) {r c : Nat} (hr : r < M.nrows) (hc : c < M.ncols) (h64 : c % 64 = 0) :
    Ok (mzd_row_clear_offset M r c) fun N => Sh M N ∧ ∀ a b, N.bit a b = if a = r ∧ c ≤ b ∧ b < 64 * M.width then false else M.bit a b := by
  have hwd : M.width = (M.ncols + 63) / 64 := rfl
  have hat := w.at (i := r) (j := c / 64) hr (by omega)
  unfold mzd_row_clear_offset
  simp only []
  rw [if_neg (show ¬ c % 64 ≠ 0 by omega)]
  show Ok (M.put r (c / 64) 0#64 >>= _) _
  rw [put_eq _ hat, C_ok_bind]
  have sh := Sh.set M r (c / 64) 0#64
  refine (zero_words (sh.wf w) (i := r) (lo := c / 64 + 1) (by rw [sh.nrows]; exact hr) (Nat.le_refl _)).mono ?_
  intro N ⟨sN, hN⟩
  refine ⟨sh.trans sN, fun a b => ?_⟩
  rw [hN, sh.width, bit_set]
  split_ifs <;> first | rfl | omega | simp

/-- What `mzd_copy_row` does. -/
theorem copy_row_spec (wA : A.Wf) (wB : B.Wf) (hn : A.ncols ≤ B.ncols) (h0 : 0 < A.ncols) {i j : Nat} (hi : i < B.nrows) (hj : j < A.nrows) :
    Ok (mzd_copy_row B i A j) fun N => Sh B N ∧ ∀ a b, N.bit a b = if a = i ∧ b < A.ncols then A.bit j b else B.bit a b := by
  have hwA : A.width = (A.ncols + 63) / 64 := rfl
  have hwB : B.width = (B.ncols + 63) / 64 := rfl
  have hmin : min B.width A.width = A.width := by omega
  have hmask : ∀ b, b / 64 = A.width - 1 → (leftMask (A.ncols % 64)).getLsbD (b % 64) = decide (b < A.ncols) := fun b hb => high_bit A hb h0
  have hA : ∀ b, A.bit j b = (A.word j (b / 64)).getLsbD (b % 64) := fun b => rfl
  unfold mzd_copy_row
  rw [if_neg (by omega), if_neg (by omega), hmin]
  simp only []
  by_cases hw : A.width - 1 ≠ 0
  · rw [if_pos hw]
    refine Ok.bind (row_loop (fun k => A.word j k) wB hi (lo := 0) (hi := A.width - 1) (by omega) fun k N _ hk _ _ => ?_) ?_
    · rw [get_eq (wA.at hj (by omega)), C_ok_bind]
    intro N ⟨sh, hN⟩
    have hat := (sh.wf wB).at (i := i) (j := A.width - 1) (by rw [sh.nrows]; exact hi) (by rw [sh.width]; omega)
    rw [get_eq hat, C_ok_bind, get_eq (wA.at hj (show A.width - 1 < A.width by omega)), C_ok_bind, put_eq _ hat, Ok.ok_iff]
    refine ⟨sh.trans (Sh.set _ _ _ _), fun a b => ?_⟩
    rw [bit_set]
    by_cases h : a = i ∧ b / 64 = A.width - 1
    · rw [if_pos h, BitVec.getLsbD_or, BitVec.getLsbD_and, BitVec.getLsbD_and, BitVec.getLsbD_not, hmask b h.2, decide_eq_true (show b % 64 < 64 by omega), hN, if_neg (by omega)]
      by_cases hb : b < A.ncols
      · rw [if_pos ⟨h.1, hb⟩, hA, h.2]; simp [hb]
      · rw [if_neg (fun g => hb g.2)]
        have e : B.bit a b = (B.word i (A.width - 1)).getLsbD (b % 64) := by unfold Mzd.bit; rw [h.1, h.2]
        rw [e]; simp [hb]
    · rw [if_neg h, bit_of_word hN]
      by_cases g : a = i ∧ 0 ≤ b / 64 ∧ b / 64 < A.width - 1
      · rw [if_pos g, if_pos (by omega), hA]
      · rw [if_neg g, if_neg (by omega)]
  · rw [if_neg hw]
    have hat := wB.at (i := i) (j := 0) hi (by omega)
    rw [get_eq (wA.at hj (show 0 < A.width by omega)), C_ok_bind, get_eq hat, C_ok_bind, put_eq _ hat, Ok.ok_iff]
    refine ⟨Sh.set _ _ _ _, fun a b => ?_⟩
    rw [bit_set]
    by_cases h : a = i ∧ b / 64 = 0
    · rw [if_pos h, BitVec.getLsbD_or, BitVec.getLsbD_and, BitVec.getLsbD_and, BitVec.getLsbD_not, hmask b (by omega), decide_eq_true (show b % 64 < 64 by omega)]
      by_cases hb : b < A.ncols
      · rw [if_pos ⟨h.1, hb⟩, hA, h.2]; simp [hb]
      · rw [if_neg (fun g => hb g.2)]
        have e : B.bit a b = (B.word i 0).getLsbD (b % 64) := by unfold Mzd.bit; rw [h.1, h.2]
        rw [e]; simp [hb]
    · rw [if_neg h, if_neg (by omega)]

/-- The loop with an early end. -/
theorem allUp_spec {f : Nat → C Bool} {p : Nat → Prop} : ∀ n i, (∀ k, i ≤ k → k < i + n → ∃ b, f k = .ok b ∧ (b = true ↔ p k)) →
    ∃ b, allUp f n i = .ok b ∧ (b = true ↔ ∀ k, i ≤ k → k < i + n → p k)
  | 0, i, _ => ⟨true, rfl, by simp; intro k h1 h2; omega⟩
  | n + 1, i, h => by
    obtain ⟨b, e, hb⟩ := h i (Nat.le_refl _) (by omega)
    obtain ⟨d, e', hd⟩ := allUp_spec n (i + 1) (fun k h1 h2 => h k (by omega) (by omega))
    cases b
    · refine ⟨false, by rw [allUp, e]; rfl, ?_⟩
      constructor
      · exact fun g => absurd g (by simp)
      · exact fun g => absurd (hb.2 (g i (Nat.le_refl _) (by omega))) (by simp)
    · refine ⟨d, by rw [allUp, e]; exact e', hd.trans ?_⟩
      constructor
      · intro g k h1 h2
        by_cases hk : k = i
        · rw [hk]; exact hb.1 rfl
        · exact g k (by omega) (by omega)
      · exact fun g k h1 h2 => g k (by omega) (by omega)

/-- What `mzd_equal` computes for different pointers. -/
theorem equal_spec (wA : A.Wf) (wB : B.Wf) (hr : A.nrows = B.nrows) (hc : A.ncols = B.ncols) (h0 : 0 < A.ncols) :
    ∃ b, mzd_equal false A B = .ok b ∧ (b = true ↔ ∀ i < A.nrows, ∀ j < A.ncols, A.bit i j = B.bit i j) := by
  have hwA : A.width = (A.ncols + 63) / 64 := rfl
  have hwB : B.width = A.width := by unfold Mzd.width; rw [hc]
  unfold mzd_equal
  rw [if_neg (by simp [hr]), if_neg (by simp [hc]), if_neg (by simp)]
  have h1 : ∀ i, 0 ≤ i → i < 0 + A.nrows → ∃ b, allUp (fun j => do pure (decide ((← A.get i j) = (← B.get i j)))) (A.width - 1) 0 = .ok b ∧
      (b = true ↔ ∀ k, 0 ≤ k → k < 0 + (A.width - 1) → A.word i k = B.word i k) := by
    intro i _ hi
    refine allUp_spec _ _ fun k _ hk => ⟨decide (A.word i k = B.word i k), ?_, decide_eq_true_iff⟩
    rw [get_eq (wA.at (by omega) (by omega)), C_ok_bind, get_eq (wB.at (by omega) (by omega)), C_ok_bind]; rfl
  have h2 : ∀ i, 0 ≤ i → i < 0 + A.nrows → ∃ b, (if A.width = 0 then .error .oob else do
        pure (decide (((← A.get i (A.width - 1)) ^^^ (← B.get i (A.width - 1))) &&& A.high = 0#64)) : C Bool) = .ok b ∧
      (b = true ↔ (A.word i (A.width - 1) ^^^ B.word i (A.width - 1)) &&& A.high = 0#64) := by
    intro i _ hi
    refine ⟨decide ((A.word i (A.width - 1) ^^^ B.word i (A.width - 1)) &&& A.high = 0#64), ?_, decide_eq_true_iff⟩
    rw [if_neg (by omega), get_eq (wA.at (by omega) (by omega)), C_ok_bind, get_eq (wB.at (by omega) (by omega)), C_ok_bind]; rfl
  obtain ⟨x, ex, hx⟩ := allUp_spec _ _ h1
  obtain ⟨y, ey, hy⟩ := allUp_spec _ _ h2
  rw [ex, C_ok_bind]
  have key : (∀ i < A.nrows, ∀ j < A.ncols, A.bit i j = B.bit i j) ↔ x = true ∧ y = true := by
    rw [hx, hy]
    constructor
    · intro h
      refine ⟨fun i _ hi k _ hk => bit_ext fun b hb => ?_, fun i _ hi => bit_ext fun b hb => ?_⟩
      · have := h i (by omega) (64 * k + b) (by omega)
        unfold Mzd.bit at this
        rwa [show (64 * k + b) / 64 = k by omega, show (64 * k + b) % 64 = b by omega] at this
      · rw [BitVec.getLsbD_and, BitVec.getLsbD_xor, BitVec.getLsbD_zero]
        have hh := high_bit A (j := 64 * (A.width - 1) + b) (by omega) h0
        rw [show (64 * (A.width - 1) + b) % 64 = b by omega] at hh
        rw [hh]
        by_cases g : 64 * (A.width - 1) + b < A.ncols
        · have := h i (by omega) _ g
          unfold Mzd.bit at this
          rw [show (64 * (A.width - 1) + b) / 64 = A.width - 1 by omega, show (64 * (A.width - 1) + b) % 64 = b by omega] at this
          rw [this]; simp
        · rw [decide_eq_false g, Bool.and_false]
    · rintro ⟨g1, g2⟩ i hi j hj
      unfold Mzd.bit
      by_cases hl : j / 64 < A.width - 1
      · rw [g1 i (by omega) (by omega) (j / 64) (by omega) (by omega)]
      · have e : j / 64 = A.width - 1 := by omega
        have := congrArg (·.getLsbD (j % 64)) (g2 i (by omega) (by omega))
        simp only [BitVec.getLsbD_and, BitVec.getLsbD_xor, BitVec.getLsbD_zero] at this
        rw [high_bit A e h0, decide_eq_true hj, Bool.and_true] at this
        rw [e]
        simpa using this
  cases x
  · exact ⟨false, rfl, by rw [key]; simp⟩
  · exact ⟨y, ey, by rw [key]; simp⟩

end WB.m4w
