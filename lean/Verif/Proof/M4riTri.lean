import Verif.Model.M4riTri
import Verif.Proof.M4riKernel
import Verif.Proof.M4riSub

/-!
# Triangular parts and the echelon form from a PLE factorisation (helper lemmas)
-/
namespace WB.m4w

open WB.cmp (Mem Mem2)

theorem clear_bits_in {B : Mzd} (w : B.Wf) {i y n : Nat} (hi : i < B.nrows) (hn : 0 < n) (hy : y % 64 + n ≤ 64) (hw : y / 64 < B.width) :
    Ok (mzd_clear_bits B i y n) fun N => Sh B N ∧ ∀ a b, N.bit a b = if a = i ∧ y ≤ b ∧ b < y + n then false else B.bit a b := by
  unfold mzd_clear_bits
  rw [if_neg (by omega)]
  have hat := w.at (i := i) (j := y / 64) hi hw
  dsimp only
  rw [get_eq hat, C_ok_bind, put_eq _ hat, C_ok_bind, if_neg (by omega), Ok.pure_iff]
  refine ⟨Sh.set _ _ _ _, fun a b => ?_⟩
  rw [bit_set]
  by_cases h : a = i ∧ b / 64 = y / 64
  · rw [if_pos h, BitVec.getLsbD_and, BitVec.getLsbD_not, decide_eq_true (show b % 64 < 64 by omega), Bool.true_and, BitVec.getLsbD_shiftLeft]
    have : ffff = BitVec.allOnes 64 := by decide
    rw [this, BitVec.getLsbD_ushiftRight, BitVec.getLsbD_allOnes, decide_eq_true (show b % 64 < 64 by omega), Bool.true_and]
    have e : B.bit a b = (B.word i (y / 64)).getLsbD (b % 64) := by unfold Mzd.bit; rw [h.1, h.2]
    rw [e]
    by_cases hb : y ≤ b ∧ b < y + n
    · rw [if_pos ⟨h.1, hb⟩, decide_eq_false (by omega), decide_eq_true (by omega)]; simp
    · rw [if_neg (by omega)]
      by_cases h1 : b % 64 < y % 64
      · rw [decide_eq_true h1]; simp
      · rw [decide_eq_false h1, decide_eq_false (show ¬ 64 - n + (b % 64 - y % 64) < 64 by omega)]; simp
  · rw [if_neg h, if_neg (by omega)]

/-- Words of a row are set to zero. -/
theorem zero_words {B : Mzd} (w : B.Wf) {i lo hi : Nat} (hi' : i < B.nrows) (hw : hi ≤ B.width) :
    Ok (forUp lo hi B fun j U => U.put i j 0#64) fun N => Sh B N ∧ ∀ a b, N.bit a b = if a = i ∧ lo ≤ b / 64 ∧ b / 64 < hi then false else B.bit a b := by
  refine (row_loop (fun _ => 0#64) w hi' hw fun j E _ _ _ _ => rfl).mono ?_
  intro N ⟨sh, h⟩
  refine ⟨sh, fun a b => ?_⟩
  rw [bit_of_word h]
  simp

/-! ## `mzd_extract_u` and `mzd_extract_l` -/

theorem extract_u_loop {U : Mzd} (w : U.Wf) (sq : U.nrows = U.ncols) :
    Ok (forUp 1 U.nrows U fun i U => do
      let U ← forUp 0 (i / 64) U fun j U => U.put i j 0#64
      if i % 64 ≠ 0 then mzd_clear_bits U i (i / 64 * 64) (i % 64) else pure U)
      fun N => Sh U N ∧ ∀ a b, N.bit a b = if a < U.nrows ∧ b < a then false else U.bit a b := by
  rcases Nat.eq_zero_or_pos U.nrows with h0 | h0
  · rw [h0]
    exact ⟨U, rfl, Sh.refl U, fun a b => by rw [if_neg (by omega)]⟩
  refine Ok.forUp (P := fun i N => Sh U N ∧ ∀ a b, N.bit a b = if a < i ∧ b < a then false else U.bit a b) h0 ⟨Sh.refl U, fun a b => by rw [if_neg (by omega)]⟩ ?_ (fun N h => h)
  intro i N h1 hi ⟨sh, hN⟩
  have hwd : N.width = (U.ncols + 63) / 64 := by rw [sh.width]; rfl
  refine Ok.bind (zero_words (sh.wf w) (i := i) (lo := 0) (hi := i / 64) (by rw [sh.nrows]; exact hi) (by rw [hwd]; omega)) ?_
  intro D ⟨shD, hD⟩
  have sh2 := sh.trans shD
  by_cases hm : i % 64 ≠ 0
  · rw [if_pos hm]
    refine (clear_bits_in (sh2.wf w) (i := i) (y := i / 64 * 64) (n := i % 64) (by rw [sh2.nrows]; exact hi) (by omega) (by omega) (by rw [sh2.width]; unfold Mzd.width; omega)).mono ?_
    intro E ⟨shE, hE⟩
    refine ⟨sh2.trans shE, fun a b => ?_⟩
    rw [hE, hD, hN]
    split_ifs <;> first | rfl | omega
  · rw [if_neg hm, Ok.pure_iff]
    refine ⟨sh2, fun a b => ?_⟩
    rw [hD, hN]
    split_ifs <;> first | rfl | omega

theorem extract_l_loop {U : Mzd} (w : U.Wf) (sq : U.nrows = U.ncols) :
    Ok (forUp 0 (U.nrows - 1) U fun i L => do
      let L ← mzd_clear_bits L i (i + 1) (64 - (i + 1) % 64)
      forUp (i / 64 + 1) L.width L fun j L => L.put i j 0#64)
      fun N => Sh U N ∧ ∀ a b, N.bit a b = if a + 1 < U.nrows ∧ a < b ∧ b < 64 * U.width then false else U.bit a b := by
  refine Ok.forUp (P := fun i N => Sh U N ∧ ∀ a b, N.bit a b = if a < i ∧ a < b ∧ b < 64 * U.width then false else U.bit a b) (Nat.zero_le _)
    ⟨Sh.refl U, fun a b => by rw [if_neg (by omega)]⟩ ?_ ?_
  · intro i N h1 hi ⟨sh, hN⟩
    have hwU : U.width = (U.ncols + 63) / 64 := rfl
    refine Ok.bind (clear_bits_in (sh.wf w) (i := i) (y := i + 1) (n := 64 - (i + 1) % 64) (by rw [sh.nrows]; omega) (by omega) (by omega) (by rw [sh.width, hwU]; omega)) ?_
    intro D ⟨shD, hD⟩
    have sh2 := sh.trans shD
    refine (zero_words (sh2.wf w) (i := i) (lo := i / 64 + 1) (by rw [sh2.nrows]; omega) (Nat.le_refl _)).mono ?_
    intro E ⟨shE, hE⟩
    refine ⟨sh2.trans shE, fun a b => ?_⟩
    rw [hE, hD, hN, sh2.width]
    split_ifs <;> first | rfl | omega
  · intro N ⟨sh, hN⟩
    refine ⟨sh, fun a b => ?_⟩
    rw [hN]
    exact if_congr (by omega) rfl rfl

/-! ## `mzd_first_zero_row` -/

theorem or_loop_from {A : Mzd} (w : A.Wf) {i : Nat} (hi : i < A.nrows) {l k : Nat} (hlk : l ≤ k) (hk : k ≤ A.width) (s : Word) :
    Ok (forUp l k s fun j status => do pure (status ||| (← A.get i j))) fun t => ∀ p, t.getLsbD p = true ↔ s.getLsbD p = true ∨ ∃ j, l ≤ j ∧ j < k ∧ (A.word i j).getLsbD p = true := by
  refine Ok.forUp (P := fun k t => ∀ p, t.getLsbD p = true ↔ s.getLsbD p = true ∨ ∃ j, l ≤ j ∧ j < k ∧ (A.word i j).getLsbD p = true) hlk
    (fun p => ⟨.inl, fun h => h.elim id fun ⟨j, h1, h2, _⟩ => absurd h1 (by omega)⟩) ?_ (fun t h => h)
  intro j t hl hj ht
  rw [get_eq (w.at hi (by omega)), C_ok_bind, Ok.pure_iff]
  intro p
  rw [BitVec.getLsbD_or, Bool.or_eq_true, ht]
  constructor
  · rintro ((h | ⟨l, h1, hl, h⟩) | h)
    · exact .inl h
    · exact .inr ⟨l, h1, by omega, h⟩
    · exact .inr ⟨j, hl, by omega, h⟩
  · rintro (h | ⟨l, h1, hl, h⟩)
    · exact .inl (.inl h)
    · by_cases e : l = j
      · subst e; exact .inr h
      · exact .inl (.inr ⟨l, h1, by omega, h⟩)

/-- The bits of a row that count: all of them in the first word, the others only up to the last column. -/
theorem row_or_ok {A : Mzd} (w : A.Wf) (h0 : 0 < A.ncols) {i : Nat} (hi : i < A.nrows) :
    ∃ t, rowOr A i = .ok t ∧ (t ≠ 0#64 ↔ ∃ j, (j < A.ncols ∨ j < 64) ∧ A.bit i j = true) := by
  have hw := width_pos h0
  have hwd : A.width = (A.ncols + 63) / 64 := rfl
  unfold rowOr
  rw [if_neg (by omega), get_eq (w.at hi hw), C_ok_bind]
  have hle : Ok (forUp 1 (A.width - 1) (A.word i 0) fun j tmp => do pure (tmp ||| (← A.get i j)))
      fun t => ∀ p, t.getLsbD p = true ↔ (A.word i 0).getLsbD p = true ∨ ∃ j, 1 ≤ j ∧ j < A.width - 1 ∧ (A.word i j).getLsbD p = true := by
    by_cases h1 : 1 ≤ A.width - 1
    · exact or_loop_from w hi h1 (by omega) _
    · rw [show A.width - 1 = 0 by omega]
      exact ⟨_, rfl, fun p => ⟨.inl, fun h => h.elim id fun ⟨j, h1, h2, _⟩ => absurd h1 (by omega)⟩⟩
  obtain ⟨s, es, hs⟩ := hle
  rw [es, C_ok_bind, get_eq (w.at hi (show A.width - 1 < A.width by omega)), C_ok_bind]
  refine ⟨_, rfl, ?_⟩
  rw [Ne, word_zero_iff, not_forall]
  have hmask : ∀ p, p < 64 → ((leftMask (A.ncols % 64)).getLsbD p = true ↔ 64 * (A.width - 1) + p < A.ncols) := by
    intro p hp
    rw [leftMask_bit _ _ (by omega), decide_eq_true_iff]
    omega
  constructor
  · rintro ⟨p, h⟩
    rw [Bool.not_eq_false, BitVec.getLsbD_or, Bool.or_eq_true, hs, BitVec.getLsbD_and, Bool.and_eq_true] at h
    have hp : p < 64 := by
      by_contra hp
      have z : ∀ x : Word, x.getLsbD p = false := fun x => BitVec.getLsbD_of_ge _ _ (by omega)
      simp only [z] at h
      simp at h
    have hb : ∀ j, A.bit i (64 * j + p) = (A.word i j).getLsbD p := fun j => by
      unfold Mzd.bit
      rw [show (64 * j + p) / 64 = j by omega, show (64 * j + p) % 64 = p by omega]
    rcases h with (h | ⟨j, h1, h2, h⟩) | ⟨h1, h2⟩
    · exact ⟨p, .inr hp, by have := hb 0; rw [Nat.mul_zero, Nat.zero_add] at this; rw [this]; exact h⟩
    · exact ⟨64 * j + p, .inl (by omega), by rw [hb]; exact h⟩
    · exact ⟨64 * (A.width - 1) + p, .inl ((hmask p hp).1 h2), by rw [hb]; exact h1⟩
  · rintro ⟨j, hj, h⟩
    refine ⟨j % 64, ?_⟩
    rw [Bool.not_eq_false, BitVec.getLsbD_or, Bool.or_eq_true, hs, BitVec.getLsbD_and, Bool.and_eq_true]
    unfold Mzd.bit at h
    by_cases h1 : j / 64 = 0
    · rw [h1] at h; exact .inl (.inl h)
    · by_cases h2 : j / 64 < A.width - 1
      · exact .inl (.inr ⟨j / 64, by omega, h2, h⟩)
      · have e : j / 64 = A.width - 1 := by omega
        rw [e] at h
        exact .inr ⟨h, (hmask _ (by omega)).2 (by omega)⟩

theorem last_row_ok {A : Mzd} (w : A.Wf) (h0 : 0 < A.ncols) : ∀ k ≤ A.nrows,
    ∃ t, lastRowFrom A k = .ok t ∧ t ≤ k ∧ (∀ i < k, t ≤ i → ∀ j, j < A.ncols ∨ j < 64 → A.bit i j = false) ∧
      (0 < t → ∃ j, (j < A.ncols ∨ j < 64) ∧ A.bit (t - 1) j = true) := by
  intro k
  induction k with
  | zero => exact fun _ => ⟨0, rfl, le_refl _, fun i hi => absurd hi (by omega), fun h => absurd h (by omega)⟩
  | succ k ih =>
    intro hk
    obtain ⟨x, ex, hx⟩ := row_or_ok w h0 (i := k) (by omega)
    rw [lastRowFrom, ex, C_ok_bind]
    by_cases h : x ≠ 0#64
    · rw [if_pos h]
      exact ⟨k + 1, rfl, le_refl _, fun i hi h' => absurd hi (by omega), fun _ => hx.1 h⟩
    · rw [if_neg h]
      obtain ⟨t, e, h1, h2, h3⟩ := ih (by omega)
      refine ⟨t, e, by omega, fun i hi hti j hj => ?_, h3⟩
      by_cases hik : i = k
      · subst hik
        by_contra hb
        exact h (hx.2 ⟨j, hj, by simpa using hb⟩)
      · exact h2 i (by omega) hti j hj

/-! ## `mzd_echelonize_pluq` -/

theorem clear_l_ok {A : Mzd} {Q : Mem Nat} (w : A.Wf) {r : Nat} (hr : r ≤ A.nrows) (hQ : r ≤ Q.size) (hq : ∀ i < r, i ≤ Q.cell i ∧ Q.cell i < A.ncols) :
    Ok (clearL r Q A) fun N => Sh A N ∧ ∀ a b, N.bit a b = if a < r ∧ b = Q.cell a then true else if a < r ∧ b ≤ a then false else A.bit a b := by
  unfold clearL
  refine Ok.forUp (P := fun i N => Sh A N ∧ ∀ a b, N.bit a b = if a < i ∧ b = Q.cell a then true else if a < i ∧ b ≤ a then false else A.bit a b) (Nat.zero_le _)
    ⟨Sh.refl A, fun a b => by rw [if_neg (by omega), if_neg (by omega)]⟩ ?_ (fun N h => h)
  intro i N _ hi ⟨sh, hN⟩
  have hqi := hq i hi
  have hwA : A.width = (A.ncols + 63) / 64 := rfl
  refine Ok.bind (P := fun D => Sh A D ∧ ∀ a b, D.bit a b = if a = i ∧ b ≤ i then false else N.bit a b) ?_ ?_
  · refine Ok.forUp (P := fun t D => Sh A D ∧ ∀ a b, D.bit a b = if a = i ∧ b / 64 < t ∧ b ≤ i then false else N.bit a b) (Nat.zero_le _) ⟨sh, fun a b => by rw [if_neg (by omega)]⟩ ?_ ?_
    · intro t D _ ht ⟨shD, hD⟩
      refine (clear_bits_in (shD.wf w) (i := i) (y := 64 * t) (n := min 64 (i - 64 * t + 1)) (by rw [shD.nrows]; omega) (by omega) (by omega) (by rw [shD.width, hwA]; omega)).mono ?_
      intro E ⟨shE, hE⟩
      refine ⟨shD.trans shE, fun a b => ?_⟩
      rw [hE, hD]
      split_ifs <;> first | rfl | omega
    · intro D ⟨shD, hD⟩
      refine ⟨shD, fun a b => ?_⟩
      rw [hD]
      exact if_congr (by omega) rfl rfl
  · intro D ⟨shD, hD⟩
    have eq : Q.get i = .ok (Q.cell i) := if_pos (by omega)
    rw [eq, C_ok_bind]
    refine (write_bit (shD.wf w) (i := i) (j := Q.cell i) (by rw [shD.nrows]; omega) (by rw [shD.ncols]; exact hqi.2) true).mono ?_
    intro E ⟨shE, hE⟩
    refine ⟨shD.trans shE, fun a b => ?_⟩
    rw [hE, hD, hN]
    by_cases ha : a = i
    · subst ha
      simp only [true_and, lt_irrefl, false_and, if_false, Nat.lt_succ_self]
    · simp only [ha, false_and, if_false, show a < i + 1 ↔ a < i by omega]

theorem zero_rest_ok {M : Mzd} {k : Nat} (w : M.Wf) (h0 : 0 < M.ncols) (hk : k ≤ M.nrows) :
    Ok (zeroRest k M) fun N => Sh M N ∧ ∀ a b, N.bit a b = if k ≤ a ∧ a < M.nrows ∧ b < M.ncols then false else M.bit a b := by
  unfold zeroRest
  by_cases h : k ≠ M.nrows
  · rw [if_pos h]
    have hw := window_rep w (x := k) (x' := M.nrows) (y := 0) (y' := M.ncols) (r := M.nrows - k) (c := M.ncols) (by omega) (by omega) (by omega) (by omega) (by omega) (by omega) (by omega)
    refine (onWindow_spec w (x := k) (y := 0) (x' := M.nrows) (y' := M.ncols) (by omega) (f := fun W => mzd_set_ui W 0) (zero_wr h0 hw.wf hw.nrows hw.ncols)).mono ?_
    intro N ⟨sh, h1, h2⟩
    refine ⟨sh, fun a b => ?_⟩
    by_cases hab : k ≤ a ∧ a < M.nrows ∧ b < M.ncols
    · rw [if_pos hab]
      have := h1 ⟨a - k, by omega⟩ ⟨b, hab.2.2⟩
      simp only [Nat.zero_add, show k + (a - k) = a by omega, Matrix.zero_apply] at this
      exact bitF_inj.1 (this.trans (by rfl : (0 : ZMod 2) = bitF false))
    · rw [if_neg hab]
      exact h2 a b (by omega)
  · rw [if_neg h, Ok.pure_iff]
    exact ⟨Sh.refl M, fun a b => by rw [if_neg (by omega)]⟩

end WB.m4w
