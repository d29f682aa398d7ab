import Verif.Model.M4riMove
import Mathlib.Data.Nat.Bitwise
import Verif.Proof.M4riPack
import Verif.Proof.M4riRow

/-!
# The functions of M4RI that move bits (helper lemmas)
-/
namespace WB.m4w

open WB.cmp (Mem Mem2)

/-! ## Sums -/

theorem add_spec {D A B : Mzd} (wD : D.Wf) (wA : A.Wf) (wB : B.Wf) (n1 : A.nrows = D.nrows) (n2 : B.nrows = D.nrows) (c1 : A.ncols = D.ncols) (c2 : B.ncols = D.ncols) :
    Ok (_mzd_add D A B) fun N => Sh D N ∧ ∀ a b, N.bit a b = if a < D.nrows ∧ b < D.ncols then A.bit a b ^^ B.bit a b else D.bit a b := by
  have e1 : A.width = D.width := by unfold Mzd.width; rw [c1]
  have e2 : B.width = D.width := by unfold Mzd.width; rw [c2]
  unfold _mzd_add
  by_cases h0 : D.ncols = 0
  · rw [if_pos (by rw [e1]; unfold Mzd.width; omega), Ok.pure_iff]
    exact ⟨Sh.refl D, fun a b => by rw [if_neg (by omega)]⟩
  have h0' : 0 < D.ncols := by omega
  have hw := width_pos h0'
  rw [if_neg (by omega), n1, n2, Nat.min_self, Nat.min_self, e1]
  refine Ok.forUp (P := fun i Q => Sh D Q ∧ ∀ a b, Q.bit a b = if a < i ∧ b < D.ncols then A.bit a b ^^ B.bit a b else D.bit a b) (Nat.zero_le _)
    ⟨Sh.refl D, fun a b => by rw [if_neg (by omega)]⟩ ?_ (fun B h => h)
  intro i Q _ hi ⟨sh, hQ⟩
  refine Ok.bind (row_loop (fun j => A.word i j ^^^ B.word i j) (sh.wf wD) (i := i) (by rw [sh.nrows]; omega) (by rw [sh.width]; omega) fun j E _ hj _ _ => by
    rw [get_eq (wA.at (by omega) (by omega)), C_ok_bind, get_eq (wB.at (by omega) (by omega)), C_ok_bind]) ?_
  intro E ⟨sh', hE⟩
  have shE := sh.trans sh'
  have hat := (shE.wf wD).at (i := i) (j := D.width - 1) (by rw [shE.nrows]; omega) (by rw [shE.width]; omega)
  rw [get_eq (wA.at (by omega) (by omega)), C_ok_bind, get_eq (wB.at (by omega) (by omega)), C_ok_bind, get_eq hat, C_ok_bind, put_eq _ hat, Ok.ok_iff]
  refine ⟨shE.trans (Sh.set _ _ _ _), fun a b => ?_⟩
  rw [bit_set, bit_of_word hE, hE, if_neg (show ¬ (i = i ∧ 0 ≤ D.width - 1 ∧ D.width - 1 < D.width - 1) by omega), shE.high]
  by_cases ha : a = i
  · subst ha
    rcases Nat.lt_trichotomy (b / 64) (D.width - 1) with hb | hb | hb
    · rw [if_neg (by omega), if_pos ⟨rfl, by omega, hb⟩, if_pos ⟨by omega, lt_of_not_last hb⟩, BitVec.getLsbD_xor]
      rfl
    · rw [if_pos ⟨rfl, hb⟩, BitVec.getLsbD_xor, BitVec.getLsbD_and, BitVec.getLsbD_xor, BitVec.getLsbD_xor, high_bit D hb h0', bit_def Q hb, bit_def A hb, bit_def B hb, hQ,
        if_neg (show ¬ (a < a ∧ b < D.ncols) by omega)]
      by_cases hc : b < D.ncols
      · rw [if_pos ⟨by omega, hc⟩, decide_eq_true hc, Bool.and_true]
        cases A.bit a b <;> cases B.bit a b <;> cases D.bit a b <;> rfl
      · rw [if_neg (by omega), decide_eq_false hc]; simp
    · rw [if_neg (by omega), if_neg (by omega), if_neg (fun h => by have := lt_width h.2; omega), hQ, if_neg (by omega)]
  · rw [if_neg (fun h => ha h.1), if_neg (fun h => ha h.1), hQ]
    exact if_congr ⟨fun h => ⟨by omega, h.2⟩, fun h => ⟨by omega, h.2⟩⟩ rfl rfl

/-! ## Copies of rows -/

theorem copyRows_spec {D A : Mzd} {r : Nat} (wD : D.Wf) (wA : A.Wf) (hr : r + A.nrows ≤ D.nrows) (hw : A.width ≤ D.width) :
    Ok (copyRows D A r) fun N => Sh D N ∧ ∀ a b, N.bit a b = if r ≤ a ∧ a < r + A.nrows ∧ b / 64 < A.width then A.bit (a - r) b else D.bit a b := by
  unfold copyRows
  refine Ok.forUp (P := fun i Q => Sh D Q ∧ ∀ a b, Q.bit a b = if r ≤ a ∧ a < r + i ∧ b / 64 < A.width then A.bit (a - r) b else D.bit a b) (Nat.zero_le _)
    ⟨Sh.refl D, fun a b => by rw [if_neg (by omega)]⟩ ?_ (fun B h => h)
  intro i Q _ hi ⟨sh, hQ⟩
  refine (row_loop (fun j => A.word i j) (sh.wf wD) (i := r + i) (by rw [sh.nrows]; omega) (by rw [sh.width]; omega) fun j E _ hj _ _ => by
    rw [get_eq (wA.at (by omega) (by omega)), C_ok_bind]).mono ?_
  intro E ⟨sh', hE⟩
  refine ⟨sh.trans sh', fun a b => ?_⟩
  rw [bit_of_word hE]
  by_cases h : a = r + i ∧ 0 ≤ b / 64 ∧ b / 64 < A.width
  · rw [if_pos h, if_pos (by omega), show a - r = i by omega]; rfl
  · rw [if_neg h, hQ]
    exact if_congr (by omega) rfl rfl

/-- What `mzd_concat` does for matrices whose unused bits are zero. -/
theorem concat_spec {A B : Mzd} (wA : A.Wf) (wB : B.Wf) (cA : A.Clean) (hn : A.nrows = B.nrows) :
    Ok (mzd_concat A B) fun N => Sh (mzd_init A.nrows (A.ncols + B.ncols)) N ∧ ∀ a b, N.bit a b =
      (decide (a < A.nrows ∧ b < A.ncols + B.ncols) && if b < A.ncols then A.bit a b else B.bit a (b - A.ncols)) := by
  unfold mzd_concat
  rw [if_neg (by omega)]
  have wD := init_wf A.nrows (A.ncols + B.ncols)
  refine Ok.bind (copyRows_spec wD wA (show 0 + A.nrows ≤ A.nrows by omega) (by show (A.ncols + 63) / 64 ≤ (A.ncols + B.ncols + 63) / 64; omega)) ?_
  intro D ⟨sh, hD⟩
  have hD' : ∀ a b, D.bit a b = (decide (a < A.nrows ∧ b < A.ncols) && A.bit a b) := by
    intro a b
    rw [hD, init_bit]
    by_cases h : 0 ≤ a ∧ a < 0 + A.nrows ∧ b / 64 < A.width
    · rw [if_pos h, Nat.sub_zero]
      by_cases hb : b < A.ncols
      · rw [decide_eq_true ⟨by omega, hb⟩, Bool.true_and]
      · rw [decide_eq_false (by omega), Bool.false_and, cA a (by omega) b (by omega) (by omega)]
    · rw [if_neg h, decide_eq_false, Bool.false_and]
      intro ⟨h1, h2⟩
      have := lt_width h2
      omega
  rw [← hn]
  refine Ok.forUp (P := fun i Q => Sh (mzd_init A.nrows (A.ncols + B.ncols)) Q ∧ ∀ a b, Q.bit a b =
      if a < i ∧ A.ncols ≤ b ∧ b < A.ncols + B.ncols then B.bit a (b - A.ncols) else D.bit a b) (Nat.zero_le _)
    ⟨sh, fun a b => by rw [if_neg (by omega)]⟩ ?_ ?_
  · intro i Q _ hi ⟨sh', hQ⟩
    refine Ok.forUp (P := fun j Q' => Sh (mzd_init A.nrows (A.ncols + B.ncols)) Q' ∧ ∀ a b, Q'.bit a b =
      if a = i ∧ A.ncols ≤ b ∧ b < A.ncols + j then B.bit a (b - A.ncols) else Q.bit a b) (Nat.zero_le _) ⟨sh', fun a b => by rw [if_neg (by omega)]⟩ ?_ ?_
    · intro j E _ hj ⟨shE, hE⟩
      rw [read_bit wB (by omega) hj, C_ok_bind]
      refine (write_bit (shE.wf wD) (i := i) (j := j + A.ncols) (by rw [shE.nrows]; exact hi) (by rw [shE.ncols]; show _ < A.ncols + B.ncols; omega) _).mono ?_
      intro F ⟨shF, hF⟩
      refine ⟨shE.trans shF, fun a b => ?_⟩
      rw [hF]
      by_cases h : a = i ∧ b = j + A.ncols
      · rw [if_pos h, if_pos (by omega), h.1, h.2, Nat.add_sub_cancel]
      · rw [if_neg h, hE]
        exact if_congr (by omega) rfl rfl
    · intro E ⟨shE, hE⟩
      refine ⟨shE, fun a b => ?_⟩
      rw [hE, hQ]
      by_cases h : a = i ∧ A.ncols ≤ b ∧ b < A.ncols + B.ncols
      · rw [if_pos h, if_pos (by omega)]
      · rw [if_neg h]
        exact if_congr (by omega) rfl rfl
  · intro Q ⟨shQ, hQ⟩
    refine ⟨shQ, fun a b => ?_⟩
    rw [hQ, hD']
    by_cases h : a < A.nrows ∧ A.ncols ≤ b ∧ b < A.ncols + B.ncols
    · rw [if_pos h, decide_eq_true (by omega), if_neg (by omega), Bool.true_and]
    · rw [if_neg h]
      by_cases hb : b < A.ncols
      · rw [if_pos hb]
        congr 1
        exact decide_eq_decide.2 (by omega)
      · rw [if_neg hb, decide_eq_false (by omega), decide_eq_false (by omega)]; rfl

theorem stack_spec {A B : Mzd} (wA : A.Wf) (wB : B.Wf) (hn : A.ncols = B.ncols) :
    Ok (mzd_stack A B) fun N => Sh (mzd_init (A.nrows + B.nrows) A.ncols) N ∧ ∀ a b, N.bit a b =
      (decide (a < A.nrows + B.nrows ∧ b / 64 < A.width) && if a < A.nrows then A.bit a b else B.bit (a - A.nrows) b) := by
  unfold mzd_stack
  rw [if_neg (by omega)]
  have wD := init_wf (A.nrows + B.nrows) A.ncols
  have hw : B.width = A.width := by unfold Mzd.width; rw [hn]
  refine Ok.bind (copyRows_spec wD wA (show 0 + A.nrows ≤ A.nrows + B.nrows by omega) (Nat.le_refl _)) ?_
  intro D ⟨sh, hD⟩
  refine (copyRows_spec (sh.wf wD) wB (by rw [sh.nrows]; exact Nat.le_refl _) (by rw [sh.width, hw]; exact Nat.le_refl _)).mono ?_
  intro N ⟨shN, hN⟩
  refine ⟨sh.trans shN, fun a b => ?_⟩
  rw [hN, hD, init_bit, hw, Nat.sub_zero]
  by_cases hb : b / 64 < A.width
  · by_cases h1 : a < A.nrows
    · rw [if_neg (by omega), if_pos (by omega), decide_eq_true (by omega), if_pos h1, Bool.true_and]
    · by_cases h2 : a < A.nrows + B.nrows
      · rw [if_pos (by omega), decide_eq_true (by omega), if_neg h1, Bool.true_and]
      · rw [if_neg (by omega), if_neg (by omega), decide_eq_false (by omega), Bool.false_and]
  · rw [if_neg (by omega), if_neg (by omega), decide_eq_false (by omega), Bool.false_and]

/-! ## Texts and random words -/

theorem from_str_spec (m n : Nat) (str : List (BitVec 8)) (hl : m * n ≤ str.length) :
    Ok (mzd_from_str m n str) fun N => Sh (mzd_init m n) N ∧ ∀ a b, N.bit a b = (decide (a < m ∧ b < n) && (str[a * n + b]? == some 49#8)) := by
  unfold mzd_from_str
  have wD := init_wf m n
  refine Ok.bind (P := fun s : Mzd × Nat => Sh (mzd_init m n) s.1 ∧ ∀ a b, s.1.bit a b = (decide (a < m ∧ b < n) && (str[a * n + b]? == some 49#8))) ?_ (fun s h => (Ok.pure_iff _ _).2 h)
  refine Ok.forUp (P := fun i (s : Mzd × Nat) => s.2 = i * n ∧ Sh (mzd_init m n) s.1 ∧ ∀ a b, s.1.bit a b = (decide (a < i ∧ b < n) && (str[a * n + b]? == some 49#8)))
    (Nat.zero_le _) ⟨by simp, Sh.refl _, fun a b => by rw [init_bit, decide_eq_false (by omega)]; rfl⟩ ?_ (fun s h => h.2)
  intro i s _ hi ⟨hs2, sh, hs⟩
  refine Ok.forUp (P := fun j (s : Mzd × Nat) => s.2 = i * n + j ∧ Sh (mzd_init m n) s.1 ∧ ∀ a b, s.1.bit a b = (decide (a < i ∧ b < n ∨ a = i ∧ b < j) && (str[a * n + b]? == some 49#8)))
    (Nat.zero_le _) ⟨hs2, sh, fun a b => by rw [hs]; congr 1; exact decide_eq_decide.2 (by omega)⟩ ?_ ?_
  · intro j s _ hj ⟨hs2, sh, hs⟩
    have hlt : s.2 < str.length := by
      have : (i + 1) * n ≤ m * n := Nat.mul_le_mul_right n hi
      rw [Nat.add_mul, Nat.one_mul] at this
      omega
    rw [List.getElem?_eq_getElem hlt]
    dsimp only
    refine Ok.bind (write_bit (sh.wf wD) (i := i) (j := j) (by rw [sh.nrows]; exact hi) (by rw [sh.ncols]; exact hj) _) ?_
    intro F ⟨shF, hF⟩
    refine (Ok.pure_iff _ _).2 ⟨by show s.2 + 1 = _; omega, sh.trans shF, fun a b => ?_⟩
    show F.bit a b = _
    rw [hF]
    by_cases h : a = i ∧ b = j
    · rw [if_pos h, decide_eq_true (by omega), Bool.true_and, h.1, h.2, ← hs2, List.getElem?_eq_getElem hlt]
      rfl
    · rw [if_neg h, hs]
      congr 1
      exact decide_eq_decide.2 (by omega)
  · intro s ⟨hs2, sh, hs⟩
    refine ⟨by rw [hs2, Nat.add_mul, Nat.one_mul], sh, fun a b => ?_⟩
    rw [hs]
    congr 1
    exact decide_eq_decide.2 (by omega)

theorem randomize_spec {A : Mzd} (w : A.Wf) (h0 : 0 < A.ncols) (rnd : Nat → Word) :
    Ok (mzd_randomize rnd A) fun N => Sh A N ∧ ∀ a b, N.bit a b = if a < A.nrows ∧ b < A.ncols then (rnd (a * A.width + b / 64)).getLsbD (b % 64) else A.bit a b := by
  unfold mzd_randomize
  have hw := width_pos h0
  refine Ok.bind (P := fun s : Mzd × Nat => Sh A s.1 ∧ ∀ a b, s.1.bit a b = if a < A.nrows ∧ b < A.ncols then (rnd (a * A.width + b / 64)).getLsbD (b % 64) else A.bit a b) ?_
    (fun s h => (Ok.pure_iff _ _).2 h)
  refine Ok.forUp (P := fun i (s : Mzd × Nat) => s.2 = i * A.width ∧ Sh A s.1 ∧
      ∀ a b, s.1.bit a b = if a < i ∧ b < A.ncols then (rnd (a * A.width + b / 64)).getLsbD (b % 64) else A.bit a b)
    (Nat.zero_le _) ⟨by simp, Sh.refl _, fun a b => by rw [if_neg (by omega)]⟩ ?_ (fun s h => h.2)
  intro i s _ hi ⟨hs2, sh, hs⟩
  refine Ok.bind (P := fun t : Mzd × Nat => t.2 = i * A.width + (A.width - 1) ∧ Sh A t.1 ∧ ∀ a b, t.1.word a b = if a = i ∧ 0 ≤ b ∧ b < A.width - 1 then rnd (i * A.width + b) else s.1.word a b) ?_ ?_
  · refine Ok.forUp (P := fun j (t : Mzd × Nat) => t.2 = i * A.width + j ∧ Sh A t.1 ∧ ∀ a b, t.1.word a b = if a = i ∧ 0 ≤ b ∧ b < j then rnd (i * A.width + b) else s.1.word a b)
      (Nat.zero_le _) ⟨hs2, sh, fun a b => by rw [if_neg (by omega)]⟩ ?_ (fun s h => h)
    intro j t _ hj ⟨ht2, sht, ht⟩
    have hat := (sht.wf w).at (i := i) (j := j) (by rw [sht.nrows]; exact hi) (by rw [sht.width]; omega)
    rw [put_eq _ hat, C_ok_bind, Ok.pure_iff]
    refine ⟨by show t.2 + 1 = _; omega, sht.trans (Sh.set _ _ _ _), fun a b => ?_⟩
    show (t.1.set i j (rnd t.2)).word a b = _
    rw [word_set, ht, ht2]
    by_cases h : a = i ∧ b = j
    · rw [if_pos h, if_pos (by omega), h.2]
    · rw [if_neg h]
      exact if_congr (by omega) rfl rfl
  intro t ⟨ht2, sht, ht⟩
  have hat := (sht.wf w).at (i := i) (j := A.width - 1) (by rw [sht.nrows]; exact hi) (by rw [sht.width]; omega)
  rw [get_eq hat, C_ok_bind, put_eq _ hat, C_ok_bind, Ok.pure_iff]
  refine ⟨?_, sht.trans (Sh.set _ _ _ _), fun a b => ?_⟩
  · show t.2 + 1 = _
    rw [Nat.add_mul, Nat.one_mul]; omega
  rw [bit_set, bit_of_word ht, ht, if_neg (show ¬ (i = i ∧ 0 ≤ A.width - 1 ∧ A.width - 1 < A.width - 1) by omega), ht2]
  by_cases ha : a = i
  · subst ha
    rcases Nat.lt_trichotomy (b / 64) (A.width - 1) with hb | hb | hb
    · rw [if_neg (by omega), if_pos ⟨rfl, by omega, hb⟩, if_pos ⟨by omega, lt_of_not_last hb⟩]
    · rw [if_pos ⟨rfl, hb⟩, BitVec.getLsbD_xor, BitVec.getLsbD_and, BitVec.getLsbD_xor, high_bit A hb h0, bit_def s.1 hb, hs,
        if_neg (show ¬ (a < a ∧ b < A.ncols) by omega), ← hb]
      by_cases hc : b < A.ncols
      · rw [if_pos ⟨by omega, hc⟩, decide_eq_true hc, Bool.and_true]
        cases A.bit a b <;> simp
      · rw [if_neg (by omega), decide_eq_false hc]; simp
    · rw [if_neg (by omega), if_neg (by omega), if_neg (fun h => by have := lt_width h.2; omega), hs, if_neg (by omega)]
  · rw [if_neg (fun h => ha h.1), if_neg (fun h => ha h.1), hs]
    exact if_congr ⟨fun h => ⟨by omega, h.2⟩, fun h => ⟨by omega, h.2⟩⟩ rfl rfl

/-! ## Comparison -/

/-- A smaller word has a zero where the larger one has a one, and they agree in the bits of more weight. -/
theorem lt_bit {x y : Word} (h : x < y) : ∃ t < 64, x.getLsbD t = false ∧ y.getLsbD t = true ∧ ∀ u, t < u → x.getLsbD u = y.getLsbD u := by
  have key : ∀ n ≤ 64, (∀ u, n ≤ u → x.getLsbD u = y.getLsbD u) → ∃ t < n, x.getLsbD t ≠ y.getLsbD t ∧ ∀ u, t < u → x.getLsbD u = y.getLsbD u := by
    intro n
    induction n with
    | zero =>
      intro _ hu
      have : x = y := BitVec.eq_of_getLsbD_eq fun i _ => hu i (Nat.zero_le _)
      rw [this] at h
      exact absurd h (BitVec.lt_irrefl _)
    | succ n ih =>
      intro hn hu
      by_cases he : x.getLsbD n = y.getLsbD n
      · obtain ⟨t, h1, h2⟩ := ih (by omega) fun u hu' => by
          rcases Nat.eq_or_lt_of_le hu' with rfl | h
          · exact he
          · exact hu u h
        exact ⟨t, by omega, h2⟩
      · exact ⟨n, by omega, he, fun u h => hu u h⟩
  obtain ⟨t, h1, h2, h3⟩ := key 64 (Nat.le_refl _) fun u hu => by rw [BitVec.getLsbD_of_ge _ _ hu, BitVec.getLsbD_of_ge _ _ hu]
  cases hx : x.getLsbD t with
  | false =>
    cases hy : y.getLsbD t with
    | false => rw [hx, hy] at h2; exact absurd rfl h2
    | true => exact ⟨t, h1, hx, hy, h3⟩
  | true =>
    exfalso
    cases hy : y.getLsbD t with
    | true => rw [hx, hy] at h2; exact absurd rfl h2
    | false =>
      have : y.toNat < x.toNat := Nat.lt_of_testBit t (by rw [← BitVec.getLsbD]; exact hy) (by rw [← BitVec.getLsbD]; exact hx) fun j hj => by
        rw [← BitVec.getLsbD, ← BitVec.getLsbD]; exact (h3 j hj).symm
      rw [BitVec.lt_def] at h
      omega

/-- In the columns before `n`, row `i` of `A` is smaller: it has a zero where `B` has a one, and they agree to the right of it. -/
def RowLt (A B : Mzd) (n i : Nat) : Prop := ∃ j < n, A.bit i j = false ∧ B.bit i j = true ∧ ∀ j', j < j' → j' < n → A.bit i j' = B.bit i j'

/-- What the comparison of a row says. -/
def RowCmp (A B : Mzd) (n i : Nat) (s : Step Int Unit) : Prop :=
  match s with
  | .stop x => x = -1 ∧ RowLt A B n i ∨ x = 1 ∧ RowLt B A n i
  | .next _ => ∀ j < n, A.bit i j = B.bit i j

theorem cmpWords {A B : Mzd} (wA : A.Wf) (wB : B.Wf) {i n : Nat} (hi : i < A.nrows) (hi' : i < B.nrows) (hw : B.width = A.width) : ∀ m, m ≤ A.width → 64 * m ≤ n →
    (∀ j, 64 * m ≤ j → j < n → A.bit i j = B.bit i j) →
    Ok (iterStop (fun j (_ : Unit) => (do
      let a ← A.get i j
      let b ← B.get i j
      if a < b then pure (.stop (-1)) else if b < a then pure (.stop 1) else pure (.next ()) : C (Step Int Unit))) (List.range m).reverse ()) (RowCmp A B n i)
  | 0, _, _, h => (Ok.pure_iff _ _).2 fun j hj => h j (Nat.zero_le _) hj
  | m + 1, hm, hmn, h => by
    rw [List.range_succ, List.reverse_append]
    show Ok (iterStop _ (m :: (List.range m).reverse) ()) _
    unfold iterStop
    rw [get_eq (wA.at hi (by omega)), C_ok_bind, get_eq (wB.at hi' (by omega)), C_ok_bind]
    have conv : ∀ {P Q : Mzd}, P.word i m < Q.word i m → (∀ j, 64 * (m + 1) ≤ j → j < n → P.bit i j = Q.bit i j) → RowLt P Q n i := by
      intro P Q hlt hPQ
      obtain ⟨t, h1, h2, h3, h4⟩ := lt_bit hlt
      have hb : ∀ M : Mzd, ∀ u < 64, M.bit i (64 * m + u) = (M.word i m).getLsbD u := fun M u hu => by
        unfold Mzd.bit; rw [show (64 * m + u) / 64 = m by omega, show (64 * m + u) % 64 = u by omega]
      refine ⟨64 * m + t, by omega, by rw [hb _ _ h1, h2], by rw [hb _ _ h1, h3], fun j' h5 h6 => ?_⟩
      by_cases h7 : j' < 64 * (m + 1)
      · have := h4 (j' - 64 * m) (by omega)
        rw [← hb _ _ (by omega), ← hb _ _ (by omega), show 64 * m + (j' - 64 * m) = j' by omega] at this
        exact this
      · exact hPQ j' (by omega) h6
    by_cases h1 : A.word i m < B.word i m
    · rw [if_pos h1]
      exact (Ok.pure_iff _ _).2 (.inl ⟨rfl, conv h1 h⟩)
    rw [if_neg h1]
    by_cases h2 : B.word i m < A.word i m
    · rw [if_pos h2]
      exact (Ok.pure_iff _ _).2 (.inr ⟨rfl, conv h2 fun j h3 h4 => (h j h3 h4).symm⟩)
    rw [if_neg h2]
    have he : A.word i m = B.word i m := BitVec.le_antisymm (BitVec.not_lt.1 h2) (BitVec.not_lt.1 h1)
    refine cmpWords wA wB hi hi' hw m (by omega) (by omega) fun j h3 h4 => ?_
    by_cases h5 : 64 * (m + 1) ≤ j
    · exact h j h5 h4
    · unfold Mzd.bit
      rw [show j / 64 = m by omega, he]

theorem cmpRow_spec {A B : Mzd} (wA : A.Wf) (wB : B.Wf) (h0 : 0 < A.ncols) (hc : B.ncols = A.ncols) {i : Nat} (hi : i < A.nrows) (hi' : i < B.nrows) :
    Ok (cmpRow A B i) (RowCmp A B A.ncols i) := by
  have hw := width_pos h0
  have hwB : B.width = A.width := by unfold Mzd.width; rw [hc]
  unfold cmpRow
  rw [get_eq (wA.at hi (by omega)), C_ok_bind, get_eq (wB.at hi' (by omega)), C_ok_bind]
  have hb : ∀ M : Mzd, ∀ u < 64, (M.word i (A.width - 1) &&& A.high).getLsbD u = (M.bit i (64 * (A.width - 1) + u) && decide (64 * (A.width - 1) + u < A.ncols)) := fun M u hu => by
    have e := high_bit A (j := 64 * (A.width - 1) + u) (by omega) h0
    rw [show (64 * (A.width - 1) + u) % 64 = u by omega] at e
    rw [BitVec.getLsbD_and, e]
    unfold Mzd.bit
    rw [show (64 * (A.width - 1) + u) / 64 = A.width - 1 by omega, show (64 * (A.width - 1) + u) % 64 = u by omega]
  have hlast : ∀ j, 64 * (A.width - 1) ≤ j → j < A.ncols → ∃ u < 64, j = 64 * (A.width - 1) + u := fun j h1 h2 =>
    ⟨j - 64 * (A.width - 1), by have := lt_width h2; omega, by omega⟩
  have conv : ∀ {P Q : Mzd}, P.word i (A.width - 1) &&& A.high < Q.word i (A.width - 1) &&& A.high → RowLt P Q A.ncols i := by
    intro P Q hlt
    obtain ⟨t, h1, h2, h3, h4⟩ := lt_bit hlt
    rw [hb _ _ h1] at h2 h3
    rw [Bool.and_eq_true, decide_eq_true_eq] at h3
    rw [decide_eq_true h3.2, Bool.and_true] at h2
    refine ⟨_, h3.2, h2, h3.1, fun j' h5 h6 => ?_⟩
    obtain ⟨u, hu, rfl⟩ := hlast j' (by omega) h6
    have := h4 u (by omega)
    rw [hb _ _ hu, hb _ _ hu, decide_eq_true h6, Bool.and_true, Bool.and_true] at this
    exact this
  dsimp only
  by_cases h1 : A.word i (A.width - 1) &&& A.high < B.word i (A.width - 1) &&& A.high
  · rw [if_pos h1]
    exact (Ok.pure_iff _ _).2 (.inl ⟨rfl, conv h1⟩)
  rw [if_neg h1]
  by_cases h2 : B.word i (A.width - 1) &&& A.high < A.word i (A.width - 1) &&& A.high
  · rw [if_pos h2]
    exact (Ok.pure_iff _ _).2 (.inr ⟨rfl, conv h2⟩)
  rw [if_neg h2]
  have he : A.word i (A.width - 1) &&& A.high = B.word i (A.width - 1) &&& A.high := BitVec.le_antisymm (BitVec.not_lt.1 h2) (BitVec.not_lt.1 h1)
  refine cmpWords wA wB hi hi' hwB (A.width - 1) (by omega) (by unfold Mzd.width; omega) fun j h3 h4 => ?_
  obtain ⟨u, hu, rfl⟩ := hlast j h3 h4
  have := congrArg (fun x : Word => x.getLsbD u) he

  rw [hb _ _ hu, hb _ _ hu, decide_eq_true h4, Bool.and_true, Bool.and_true] at this
  exact this

/-- `A` comes before `B`: they agree in the first rows, and in the next row `A` is smaller. -/
def MzdLt (A B : Mzd) : Prop := ∃ i < A.nrows, (∀ i' < i, ∀ j < A.ncols, A.bit i' j = B.bit i' j) ∧ RowLt A B A.ncols i

theorem cmp_spec {A B : Mzd} (wA : A.Wf) (wB : B.Wf) (h0 : 0 < A.ncols) (hr : B.nrows = A.nrows) (hc : B.ncols = A.ncols) :
    Ok (mzd_cmp A B) fun x => x = -1 ∧ MzdLt A B ∨ x = 1 ∧ MzdLt B A ∨ x = 0 ∧ ∀ i < A.nrows, ∀ j < A.ncols, A.bit i j = B.bit i j := by
  unfold mzd_cmp
  rw [if_neg (by omega), if_neg (by omega), if_neg (by omega), if_neg (by omega)]
  refine Ok.bind (P := fun s : Step Int Unit => match s with
      | .stop x => x = -1 ∧ MzdLt A B ∨ x = 1 ∧ MzdLt B A
      | .next _ => ∀ i < A.nrows, ∀ j < A.ncols, A.bit i j = B.bit i j) ?_ ?_
  · refine Ok.forRet (P := fun i _ => ∀ i' < i, ∀ j < A.ncols, A.bit i' j = B.bit i' j) (R := fun x => x = -1 ∧ MzdLt A B ∨ x = 1 ∧ MzdLt B A) (Nat.zero_le _)
      (fun i' h => by omega) ?_ (fun _ h => h) (fun _ h => h)
    intro i _ _ hi hP
    refine (cmpRow_spec wA wB h0 hc hi (by omega)).mono ?_
    intro s hs
    cases s with
    | stop x =>
      rcases hs with ⟨h1, h2⟩ | ⟨h1, h2⟩
      · exact .inl ⟨h1, i, hi, hP, h2⟩
      · exact .inr ⟨h1, i, by omega, fun i' hi' j hj => (hP i' hi' j (by omega)).symm, by rw [hc]; exact h2⟩
    | next _ =>
      intro i' hi'
      rcases Nat.lt_succ_iff_lt_or_eq.1 hi' with h | rfl
      · exact hP i' h
      · exact hs
  · intro s hs
    cases s with
    | stop x => exact (Ok.pure_iff _ _).2 (by rcases hs with h | h; exacts [.inl h, .inr (.inl h)])
    | next _ => exact (Ok.pure_iff _ _).2 (.inr (.inr ⟨rfl, hs⟩))

end WB.m4w
