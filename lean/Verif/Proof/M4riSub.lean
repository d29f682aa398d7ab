import Verif.Proof.M4riEchNaive

/-!
# Submatrices in M4RI (helper lemmas)
-/
namespace WB.m4w

open WB.cmp (Mem Mem2)

theorem init_width (n m : Nat) : (mzd_init n m).width = (m + 63) / 64 := rfl

theorem bit_shift (M : Mzd) {i c b : Nat} (hc : c % 64 = 0) : (M.word i (c / 64 + b / 64)).getLsbD (b % 64) = M.bit i (c + b) := by
  unfold Mzd.bit
  rw [show (c + b) / 64 = c / 64 + b / 64 by omega, show (c + b) % 64 = b % 64 by omega]

theorem submatrix_spec {M : Mzd} (w : M.Wf) {sr sc n m : Nat} (hr : sr + n ≤ M.nrows) (hc : sc + m ≤ M.ncols) (h : sc % 64 = 0 ∨ m % 64 ≠ 0) :
    Ok (mzd_submatrix M sr sc (sr + n) (sc + m)) fun N => Sh (mzd_init n m) N ∧ ∀ a b, N.bit a b = (decide (a < n ∧ b < m) && M.bit (sr + a) (sc + b)) := by
  unfold mzd_submatrix
  dsimp only
  rw [show sr + n - sr = n by omega, show sc + m - sc = m by omega]
  have w0 := init_wf n m
  have hwd := init_width n m
  have hMw : M.width = (M.ncols + 63) / 64 := rfl
  by_cases hs : sc % 64 = 0
  · rw [if_pos hs]
    refine Ok.bind (P := fun N => Sh (mzd_init n m) N ∧ ∀ a b, N.bit a b = (decide (a < n ∧ b / 64 < m / 64) && M.bit (sr + a) (sc + b))) ?_ ?_
    · refine Ok.forUp (P := fun i N => Sh (mzd_init n m) N ∧ ∀ a b, N.bit a b = (decide (a < i ∧ b / 64 < m / 64) && M.bit (sr + a) (sc + b))) (Nat.zero_le _)
        ⟨Sh.refl _, fun a b => by rw [init_bit, decide_eq_false (by omega), Bool.false_and]⟩ ?_ (fun N h => h)
      intro i Q _ hi ⟨sh, hQ⟩
      refine (row_loop (fun j => M.word (sr + i) (sc / 64 + j)) (sh.wf w0) (i := i) (by rw [sh.nrows]; exact hi) (by rw [sh.width, hwd]; omega) fun j E _ hj _ _ => by
        rw [get_eq (w.at (by omega) (by rw [hMw]; omega)), C_ok_bind]).mono ?_
      intro E ⟨sh', hE⟩
      refine ⟨sh.trans sh', fun a b => ?_⟩
      rw [bit_of_word hE]
      by_cases h : a = i ∧ 0 ≤ b / 64 ∧ b / 64 < m / 64
      · rw [if_pos h, decide_eq_true (by omega), Bool.true_and, bit_shift M hs, h.1]
      · rw [if_neg h, hQ]
        congr 1
        exact decide_eq_decide.2 (by omega)
    · intro N ⟨sh, hN⟩
      by_cases hm : m % 64 ≠ 0
      · rw [if_pos hm]
        refine Ok.forUp (P := fun i Q => Sh (mzd_init n m) Q ∧ ∀ a b, Q.bit a b = if a < i ∧ b / 64 = m / 64 then decide (b < m) && M.bit (sr + a) (sc + b) else N.bit a b) (Nat.zero_le _)
          ⟨sh, fun a b => by rw [if_neg (by omega)]⟩ ?_ ?_
        · intro i Q _ hi ⟨shQ, hQ⟩
          rw [get_eq (w.at (by omega) (by rw [hMw]; omega)), C_ok_bind, Ok_put]
          refine ⟨(shQ.wf w0).at (by rw [shQ.nrows]; exact hi) (by rw [shQ.width, hwd]; omega), shQ.trans (Sh.set _ _ _ _), fun a b => ?_⟩
          rw [bit_set]
          by_cases h : a = i ∧ b / 64 = m / 64
          · rw [if_pos h, if_pos (by omega), BitVec.getLsbD_and, leftMask_bit _ _ (by omega), ← h.2, bit_shift M hs, h.1, Bool.and_comm]
            congr 1
            exact decide_eq_decide.2 (by omega)
          · rw [if_neg h, hQ]
            exact if_congr (by omega) rfl rfl
        · intro Q ⟨shQ, hQ⟩
          refine ⟨shQ, fun a b => ?_⟩
          rw [hQ, hN]
          by_cases h : a < n ∧ b / 64 = m / 64
          · rw [if_pos h]
            congr 1
            exact decide_eq_decide.2 (by omega)
          · rw [if_neg h]
            congr 1
            exact decide_eq_decide.2 (by omega)
      · rw [if_neg hm, Ok.pure_iff]
        refine ⟨sh, fun a b => ?_⟩
        rw [hN]
        congr 1
        exact decide_eq_decide.2 (by omega)
  · rw [if_neg hs]
    have hm : m % 64 ≠ 0 := h.resolve_left hs
    have hmw : m / 64 = (mzd_init n m).width - 1 := by rw [hwd]; omega
    refine Ok.forUp (P := fun i N => Sh (mzd_init n m) N ∧ ∀ a b, N.bit a b = (decide (a < i ∧ b < m) && M.bit (sr + a) (sc + b))) (Nat.zero_le _)
      ⟨Sh.refl _, fun a b => by rw [init_bit, decide_eq_false (by omega), Bool.false_and]⟩ ?_ (fun N h => h)
    intro i Q _ hi ⟨sh, hQ⟩
    have hF : ∀ q, ∃ v : Word, q < m / 64 → mzd_read_bits M (sr + i) (sc + 64 * q) 64 = .ok v ∧ ∀ b, v.getLsbD b = (decide (b < 64) && M.bit (sr + i) (sc + 64 * q + b)) := by
      intro q
      by_cases hq : q < m / 64
      · obtain ⟨v, e, hv⟩ := read_bits w (x := sr + i) (y := sc + 64 * q) (n := 64) (by omega) (by decide) (by decide) (by rw [hMw]; omega)
        exact ⟨v, fun _ => ⟨e, hv⟩⟩
      · exact ⟨0, fun h => absurd h hq⟩
    choose F hF using hF
    refine Ok.bind (row_loop F (sh.wf w0) (i := i) (lo := 0) (hi := m / 64) (by rw [sh.nrows]; exact hi) (by rw [sh.width, hwd]; omega) fun j E _ hj _ _ => by
      rw [(hF j hj).1, C_ok_bind]) ?_
    intro E ⟨shE, hE⟩
    have shE' := sh.trans shE
    have wE := (shE'.wf w0).at (i := i) (j := m / 64) (by rw [shE'.nrows]; exact hi) (by rw [shE'.width, hwd]; omega)
    have hEb : ∀ a b, E.bit a b = (decide (a ≤ i ∧ b < m ∧ (a = i → b / 64 < m / 64)) && M.bit (sr + a) (sc + b)) := by
      intro a b
      rw [bit_of_word hE]
      by_cases h : a = i ∧ 0 ≤ b / 64 ∧ b / 64 < m / 64
      · rw [if_pos h, (hF _ h.2.2).2, decide_eq_true (by omega), decide_eq_true (by omega), h.1, show sc + 64 * (b / 64) + b % 64 = sc + b by omega]
      · rw [if_neg h, hQ]
        by_cases hb : a = i ∧ m / 64 ≤ b / 64
        · rw [decide_eq_false (by omega), decide_eq_false (by omega)]
        · congr 1
          exact decide_eq_decide.2 (by omega)
    rw [get_eq wE, C_ok_bind, put_eq _ wE, C_ok_bind]
    obtain ⟨v, e, hv⟩ := read_bits w (x := sr + i) (y := sc + 64 * (m / 64)) (n := m % 64) (by omega) (by omega) (by omega) (by rw [hMw]; omega)
    rw [e, C_ok_bind, get_eq (M := E.set i (m / 64) _) wE, C_ok_bind, Ok_put]
    refine ⟨wE, (shE'.trans (Sh.set _ _ _ _)).trans (Sh.set _ _ _ _), fun a b => ?_⟩
    have hhigh : ∀ (x : Word), (E.set i (m / 64) x).high = E.high := fun _ => rfl
    have hH : ∀ b, b / 64 = m / 64 → E.high.getLsbD (b % 64) = decide (b < m) := by
      intro b hb
      have := high_bit E (j := b) (by rw [shE'.width, ← hmw]; exact hb) (by rw [shE'.ncols]; show 0 < m; omega)
      rw [this, shE'.ncols]; rfl
    rw [bit_set, bit_set]
    by_cases h : a = i ∧ b / 64 = m / 64
    · rw [if_pos h, BitVec.getLsbD_or, word_set, if_pos ⟨rfl, rfl⟩, BitVec.getLsbD_and, BitVec.getLsbD_and, BitVec.getLsbD_not, hhigh, hH b h.2, bit_def E h.2, hEb,
        decide_eq_false (by omega), hv, h.1, show sc + 64 * (m / 64) + b % 64 = sc + b by omega]
      by_cases hb : b < m
      · rw [decide_eq_true (show b % 64 < m % 64 by omega), decide_eq_true hb]; simp [hb]
      · rw [decide_eq_false (show ¬ b % 64 < m % 64 by omega), decide_eq_false hb]; simp [hb]
    · rw [if_neg h, if_neg h, hEb]
      congr 1
      exact decide_eq_decide.2 (by omega)

/-- The word after the last one of a row is accessed. -/
theorem submatrix_oob {M : Mzd} (w : M.Wf) {sr sc n m : Nat} (hn : 0 < n) (hr : sr + n ≤ M.nrows) (hc : sc + m ≤ M.ncols) (h1 : sc % 64 ≠ 0) (h2 : m % 64 = 0) :
    mzd_submatrix M sr sc (sr + n) (sc + m) = .error .oob := by
  unfold mzd_submatrix
  dsimp only
  rw [show sr + n - sr = n by omega, show sc + m - sc = m by omega, if_neg h1]
  have w0 := init_wf n m
  have hwd := init_width n m
  have hMw : M.width = (M.ncols + 63) / 64 := rfl
  obtain ⟨k, rfl⟩ : ∃ k, n = k + 1 := ⟨n - 1, by omega⟩
  unfold forUp
  rw [show k + 1 - 0 = k + 1 by omega, List.range'_succ, List.foldlM_cons]
  have hF : ∀ q, ∃ v : Word, q < m / 64 → mzd_read_bits M (sr + 0) (sc + 64 * q) 64 = .ok v := by
    intro q
    by_cases hq : q < m / 64
    · obtain ⟨v, e, hv⟩ := read_bits w (x := sr + 0) (y := sc + 64 * q) (n := 64) (by omega) (by decide) (by decide) (by rw [hMw]; omega)
      exact ⟨v, fun _ => e⟩
    · exact ⟨0, fun h => absurd h hq⟩
  choose F hF using hF
  obtain ⟨E, e, sh, _⟩ := row_loop (f := fun q S => do S.put 0 q (← mzd_read_bits M (sr + 0) (sc + 64 * q) 64)) F w0 (i := 0) (lo := 0) (hi := m / 64) (Nat.succ_pos _) (by rw [hwd]; omega)
    fun j E _ hj _ _ => by rw [hF j hj, C_ok_bind]
  unfold forUp at e
  have hget : E.get 0 (m / 64) = .error .oob := by
    unfold Mzd.get Mem2.get
    rw [if_neg]
    rw [sh.off, sh.cols]
    show ¬ (_ ∧ 0 + m / 64 < (m + 63) / 64)
    omega
  beta_reduce at e ⊢
  rw [e, C_ok_bind, hget]
  rfl

end WB.m4w
