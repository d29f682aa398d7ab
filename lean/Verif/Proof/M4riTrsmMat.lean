import Verif.SpecM4riTrsm
import Verif.Proof.M4riTrsmRight

/-!
# Systems with triangular matrices: from bits to matrices, and where the solution fails (helper lemmas)
-/
namespace WB.m4w

open WB.cmp (Mem Mem2)

theorem unitLower_det {n : Nat} (A : Matrix (Fin n) (Fin n) (ZMod 2)) : (unitLower A).det = 1 := by
  rw [Matrix.det_of_lowerTriangular (unitLower A) fun i j h => by
    have h : i < j := h
    unfold unitLower
    rw [if_neg (ne_of_lt h), if_neg (not_lt_of_gt h)]]
  exact Finset.prod_eq_one fun i _ => if_pos rfl

theorem unitUpper_det {n : Nat} (A : Matrix (Fin n) (Fin n) (ZMod 2)) : (unitUpper A).det = 1 := by
  rw [Matrix.det_of_upperTriangular (M := unitUpper A) fun i j h => by
    have h : j < i := h
    unfold unitUpper
    rw [if_neg (ne_of_gt h), if_neg (not_lt_of_gt h)]]
  exact Finset.prod_eq_one fun i _ => if_pos rfl

theorem unitLower_unit {n : Nat} (A : Matrix (Fin n) (Fin n) (ZMod 2)) : IsUnit (unitLower A) := (Matrix.isUnit_iff_isUnit_det _).2 (by rw [unitLower_det]; exact isUnit_one)

theorem unitUpper_unit {n : Nat} (A : Matrix (Fin n) (Fin n) (ZMod 2)) : IsUnit (unitUpper A) := (Matrix.isUnit_iff_isUnit_det _).2 (by rw [unitUpper_det]; exact isUnit_one)

/-- The matrix of the bits. -/
def bitsOf (N : Mzd) (r c : Nat) : Matrix (Fin r) (Fin c) (ZMod 2) := fun i j => bitF (N.bit i j)

theorem bitsOf_rep {M N : Mzd} {r c : Nat} {X : Matrix (Fin r) (Fin c) (ZMod 2)} (h : Rep M X) (sh : Sh M N) : Rep N (bitsOf N r c) :=
  ⟨sh.wf h.wf, by rw [sh.nrows, h.nrows], by rw [sh.ncols, h.ncols], fun _ _ => rfl⟩

theorem two_cancel {x y z : ZMod 2} (h : x = y + z) : x + z = y := by rw [h, add_assoc, CharTwo.add_self_eq_zero, add_zero]

theorem unitLower_sum {n : Nat} (A : Matrix (Fin n) (Fin n) (ZMod 2)) (i : Fin n) (f : Fin n → ZMod 2) :
    ∑ l, unitLower A i l * f l = f i + ∑ l : Fin n, (if (l : Nat) < i then A i l else 0) * f l := by
  have : ∀ l, unitLower A i l * f l = (if i = l then f l else 0) + (if (l : Nat) < i then A i l else 0) * f l := by
    intro l
    unfold unitLower
    by_cases h : i = l
    · subst h
      rw [if_pos rfl, if_pos rfl, if_neg (Nat.lt_irrefl _)]
      ring
    · rw [if_neg h, if_neg h, zero_add]
      rfl
  simp only [this]
  rw [Finset.sum_add_distrib, Finset.sum_ite_eq, if_pos (Finset.mem_univ _)]

theorem unitUpper_sum {n : Nat} (A : Matrix (Fin n) (Fin n) (ZMod 2)) (i : Fin n) (f : Fin n → ZMod 2) :
    ∑ l, unitUpper A i l * f l = f i + ∑ l : Fin n, (if (i : Nat) < l then A i l else 0) * f l := by
  have : ∀ l, unitUpper A i l * f l = (if i = l then f l else 0) + (if (i : Nat) < l then A i l else 0) * f l := by
    intro l
    unfold unitUpper
    by_cases h : i = l
    · subst h
      rw [if_pos rfl, if_pos rfl, if_neg (Nat.lt_irrefl _)]
      ring
    · rw [if_neg h, if_neg h, zero_add]
      rfl
  simp only [this]
  rw [Finset.sum_add_distrib, Finset.sum_ite_eq, if_pos (Finset.mem_univ _)]

theorem unitLower_sum' {n : Nat} (A : Matrix (Fin n) (Fin n) (ZMod 2)) (j : Fin n) (f : Fin n → ZMod 2) :
    ∑ l, f l * unitLower A l j = f j + ∑ l : Fin n, (if (j : Nat) < l then A l j else 0) * f l := by
  have : ∀ l, f l * unitLower A l j = (if l = j then f l else 0) + (if (j : Nat) < l then A l j else 0) * f l := by
    intro l
    unfold unitLower
    by_cases h : l = j
    · subst h
      rw [if_pos rfl, if_pos rfl, if_neg (Nat.lt_irrefl _)]
      ring
    · rw [if_neg h, if_neg h, zero_add, mul_comm]
      rfl
  simp only [this]
  rw [Finset.sum_add_distrib, Finset.sum_ite_eq', if_pos (Finset.mem_univ _)]

theorem unitUpper_sum' {n : Nat} (A : Matrix (Fin n) (Fin n) (ZMod 2)) (j : Fin n) (f : Fin n → ZMod 2) :
    ∑ l, f l * unitUpper A l j = f j + ∑ l : Fin n, (if (l : Nat) < j then A l j else 0) * f l := by
  have : ∀ l, f l * unitUpper A l j = (if l = j then f l else 0) + (if (l : Nat) < j then A l j else 0) * f l := by
    intro l
    unfold unitUpper
    by_cases h : l = j
    · subst h
      rw [if_pos rfl, if_pos rfl, if_neg (Nat.lt_irrefl _)]
      ring
    · rw [if_neg h, if_neg h, zero_add, mul_comm]
      rfl
  simp only [this]
  rw [Finset.sum_add_distrib, Finset.sum_ite_eq', if_pos (Finset.mem_univ _)]

variable {n c r : Nat} {ML MB N : Mzd} {A : Matrix (Fin n) (Fin n) (ZMod 2)}

theorem bitF_cond (p : Prop) [Decidable p] (x : Bool) (y : Bool) : bitF (decide p && (x && y)) = (if p then bitF x else 0) * bitF y := by
  by_cases h : p
  · rw [decide_eq_true h, if_pos h, Bool.true_and, bitF_and]
  · rw [decide_eq_false h, if_neg h, Bool.false_and, zero_mul]
    rfl

theorem Sol.lower {B : Matrix (Fin n) (Fin c) (ZMod 2)} (hL : Rep ML A) (hB : Rep MB B) (h : Sol ML MB N n c fun a l => decide (l < a)) : unitLower A * bitsOf N n c = B := by
  ext i j
  rw [Matrix.mul_apply, unitLower_sum]
  refine two_cancel ?_
  have := congrArg bitF (h.bit i j)
  rw [decide_eq_true ⟨i.2, j.2⟩, Bool.true_and, bitF_xor, bitF_xsum, hB.bit] at this
  refine this.trans (congrArg _ (Finset.sum_congr rfl fun l _ => ?_))
  rw [bitF_cond, hL.bit]
  rfl

theorem Sol.upper {B : Matrix (Fin n) (Fin c) (ZMod 2)} (hL : Rep ML A) (hB : Rep MB B) (h : Sol ML MB N n c fun a l => decide (a < l)) : unitUpper A * bitsOf N n c = B := by
  ext i j
  rw [Matrix.mul_apply, unitUpper_sum]
  refine two_cancel ?_
  have := congrArg bitF (h.bit i j)
  rw [decide_eq_true ⟨i.2, j.2⟩, Bool.true_and, bitF_xor, bitF_xsum, hB.bit] at this
  refine this.trans (congrArg _ (Finset.sum_congr rfl fun l _ => ?_))
  rw [bitF_cond, hL.bit]
  rfl

theorem SolR.lower {B : Matrix (Fin r) (Fin n) (ZMod 2)} (hL : Rep ML A) (hB : Rep MB B) (h : SolR ML MB N r n fun b l => decide (b < l)) : bitsOf N r n * unitLower A = B := by
  ext i j
  rw [Matrix.mul_apply, unitLower_sum']
  refine two_cancel ?_
  have := congrArg bitF (h.bit i j)
  rw [decide_eq_true ⟨i.2, j.2⟩, Bool.true_and, bitF_xor, bitF_xsum, hB.bit] at this
  refine this.trans (congrArg _ (Finset.sum_congr rfl fun l _ => ?_))
  rw [bitF_cond, hL.bit]
  rfl

theorem SolR.upper {B : Matrix (Fin r) (Fin n) (ZMod 2)} (hL : Rep ML A) (hB : Rep MB B) (h : SolR ML MB N r n fun b l => decide (l < b)) : bitsOf N r n * unitUpper A = B := by
  ext i j
  rw [Matrix.mul_apply, unitUpper_sum']
  refine two_cancel ?_
  have := congrArg bitF (h.bit i j)
  rw [decide_eq_true ⟨i.2, j.2⟩, Bool.true_and, bitF_xor, bitF_xsum, hB.bit] at this
  refine this.trans (congrArg _ (Finset.sum_congr rfl fun l _ => ?_))
  rw [bitF_cond, hL.bit]
  rfl

theorem Sol.out {S : Nat → Nat → Bool} (h : Sol ML MB N n c S) (i j : Nat) (hij : ¬ (i < n ∧ j < c)) : N.bit i j = MB.bit i j := by
  rw [h.bit, decide_eq_false hij, Bool.false_and, Bool.xor_false]

theorem SolR.out {S : Nat → Nat → Bool} (h : SolR ML MB N r n S) (i j : Nat) (hij : ¬ (i < r ∧ j < n)) : N.bit i j = MB.bit i j := by
  rw [h.bit, decide_eq_false hij, Bool.false_and, Bool.xor_false]

/-! ## Where it fails -/

theorem forUp_first {σ : Type} {lo hi : Nat} {s : σ} {f : Nat → σ → C σ} {err : Fault} (h : lo < hi) (hf : f lo s = .error err) : forUp lo hi s f = .error err := by
  unfold forUp
  obtain ⟨m, hm⟩ : ∃ m, hi - lo = m + 1 := ⟨hi - lo - 1, by omega⟩
  rw [hm, List.range'_succ, List.foldlM_cons, hf]
  rfl

theorem multOf_step {c w mu : Nat} (h : c < w) : multOf c w mu = multOf c (w / 2) (2 * mu) := by rw [multOf, if_pos h]

theorem multOf_stop {c w mu : Nat} (h : ¬ c < w) : multOf c w mu = mu := by rw [multOf, if_neg h]

/-- A product whose common dimension is halved to 0. -/
theorem addmul_even_crash' (tr : Bool → Mzd → C Mzd) (e : List Nat → MulEnv) (win : Bool) {cut mu p q fuel m k n : Nat} {MC MA MB : Mzd} {X : Matrix (Fin m) (Fin n) (ZMod 2)}
    {A : Matrix (Fin m) (Fin k) (ZMod 2)} {B : Matrix (Fin k) (Fin n) (ZMod 2)} (hX : Rep MC X) (hA : Rep MA A) (hB : Rep MB B) (hcut : 0 < cut) (hm : 4 * cut ≤ 3 * m) (hn : 4 * cut ≤ 3 * n)
    (hk : 4 * cut ≤ 3 * k) (hmu : multOf cut (min (min m n) k / 2) 64 = mu) (hp : halfOf m mu = p) (hq : halfOf n mu = q) (hk0 : halfOf k mu = 0) (hp0 : 64 ≤ p) (hq0 : 64 ≤ q) :
    _mzd_addmul_even tr cut (fuel + 2) e win MC MA MB = .error .oob := by
  unfold _mzd_addmul_even
  rw [hX.nrows, hX.ncols, hA.nrows, hA.ncols, hB.ncols, if_neg (by omega), if_neg (by unfold closer; simp; omega)]
  simp only []
  have lp := halfOf_le m mu
  have lq := halfOf_le n mu
  have mq := halfOf_mod n mu
  rw [hmu, hp, hq, hk0]
  rw [hp] at lp
  rw [hq] at lq mq
  have l1 : (1 : Nat) < 2 := by omega
  have l0 : (0 : Nat) < 2 := by omega
  have rA : ∀ u v, u < 2 → v < 2 → Rep (quad MA p 0 u v) (qb MA p 0 u v) ∧ (quad MA p 0 u v).Clean := fun u v hu hv => quad_rep hA.wf rfl hu hv (by rw [hA.nrows]; omega) (by rw [hA.ncols]; omega)
  have rB : ∀ u v, u < 2 → v < 2 → Rep (quad MB 0 q u v) (qb MB 0 q u v) ∧ (quad MB 0 q u v).Clean := fun u v hu hv => quad_rep hB.wf (by omega) hu hv (by rw [hB.nrows]; omega) (by rw [hB.ncols]; omega)
  have wC : Room MC p q := ⟨hX.wf, by omega, by rw [hX.nrows]; omega, by rw [hX.ncols]; omega⟩
  have h0 := Quads.init MC p q
  unfold addmulBlocks
  obtain ⟨S, eS, oS, rS⟩ := (Own.init p 0).add (rA 1 1 l1 l1).1 (rA 1 0 l1 l0).1
  obtain ⟨T, eT, oT, rT⟩ := (Own.init 0 q).add (rB 1 1 l1 l1).1 (rB 1 0 l1 l0).1
  rw [eS, C_ok_bind, eT, C_ok_bind]
  have hU : Ok (_mzd_mul_even tr cut (fuel + 1) (fun l => e (0 :: l)) false (mzd_init p q) S T) fun N =>
      Wr (mzd_init p q) N ((qb MA p 0 1 1 + qb MA p 0 1 0) * (qb MB 0 q 1 1 + qb MB 0 q 1 0)) := by
    unfold _mzd_mul_even
    have : closer S.ncols cut = true := by unfold closer; rw [oS.2.2.1]; exact decide_eq_true (by omega)
    rw [if_neg (show ¬ ((mzd_init p q).nrows = 0 ∨ (mzd_init p q).ncols = 0) by show ¬ (p = 0 ∨ q = 0); omega), this, Bool.or_true, Bool.true_or, if_pos rfl, if_neg (by simp)]
    exact m4rm_big (tr false) _ (by omega) (by omega) (init_wf p q) rfl rfl rS rT
  obtain ⟨U, eU, wU⟩ := hU
  have rU := wU.rep (init_wf p q) rfl rfl
  beta_reduce
  rw [eU, C_ok_bind]
  obtain ⟨C1, e1, h1⟩ := h0.add wC 1 1 l1 l1 (f := fun W => _mzd_add W U W) U _ rfl rU (h0.at wC 1 1 l1 l1)
  obtain ⟨C2, e2, h2⟩ := h1.add wC 0 1 l0 l1 (f := fun W => _mzd_add W U W) U _ rfl rU (h1.at wC 0 1 l0 l1)
  rw [e1, C_ok_bind, e2, C_ok_bind]
  rw [base_no_columns hcut _ (by rw [rU.nrows]; omega) (by rw [rU.ncols]; omega) (by rw [(rA 0 1 l0 l1).1.nrows]; omega) (rA 0 1 l0 l1).1.ncols]
  rfl

/-- 1000 rows and the cutoff 40. -/
theorem upper_left_crash {junk : Nat → Word} {mb : Mzd → Mzd → C Mzd} {fuel c : Nat} (e : List Nat → TrsmEnv) {L M : Mzd} (hc1 : 512 ≤ c) (hc2 : c < 1024) (wL : L.Wf) (lr : L.nrows = 1000)
    (lc : L.ncols = 1000) (wM : M.Wf) (hr : M.nrows = 1000) (hc : M.ncols = c) : _mzd_trsm_upper_left (mzd_transpose_any junk mb) 512 40 (fuel + 2) e L M = .error .oob := by
  rw [_mzd_trsm_upper_left]
  simp only []
  rw [hr, hc, if_neg (by omega), if_neg (by omega), show trsmHalf 1000 = 512 by decide +kernel]
  have r1 : 512 % 64 = 0 := by omega
  obtain ⟨W1, e1, h1⟩ : Ok (_mzd_trsm_upper_left (mzd_transpose_any junk mb) 512 40 (fuel + 1) (fun l => e (0 :: l)) (mzd_window L 512 512 1000 1000) (mzd_window M 512 0 1000 c))
      fun N => Sol (mzd_window L 512 512 1000 1000) (mzd_window M 512 0 1000 c) N 488 c fun a l => decide (a < l) := by
    have hnr : (mzd_window M 512 0 1000 c).nrows = 488 := by rw [window_nrows (by omega)]
    rw [_mzd_trsm_upper_left]
    simp only []
    rw [hnr, if_neg (by omega), if_pos (by omega)]
    exact upper_left_russian (n := 488) (window_wf wL r1 (by omega) (by omega) (by omega) (by omega)) (by rw [window_nrows (by omega)]) (show 1000 - 512 = 488 by omega) (window_wf wM rfl (by omega) (by omega) (by omega) (by omega)) hnr
      (Nat.sub_zero _) (by omega) (by omega) _ _
  obtain ⟨N1, f1, s1, i1, o1⟩ := onWindow_bits (r := 488) (c := c) wM rfl e1 h1.sh fun a b hab => by
    rw [h1.bit, decide_eq_false hab, Bool.false_and, Bool.xor_false, window_bit _ (Nat.zero_mod 64)]
  have w1 := s1.wf wM
  have n1 : N1.nrows = 1000 := by rw [s1.nrows, hr]
  have c1 : N1.ncols = c := by rw [s1.ncols, hc]
  rw [f1, C_ok_bind]
  have rX := window_rep (x := 0) (y := 0) (x' := 512) (y' := c) w1 rfl (by omega) (by omega) (by omega) (by omega) (Nat.sub_zero 512) (Nat.sub_zero c)
  have rA := window_rep (x := 0) (y := 512) (x' := 512) (y' := 1000) wL r1 (by omega) (by omega) (by omega) (by omega) (Nat.sub_zero 512) rfl
  have rB := window_rep (x := 512) (y := 0) (x' := 1000) (y' := c) w1 rfl (by omega) (by omega) (by omega) (by omega) rfl (Nat.sub_zero c)
  rw [onWindow_error (f := fun W => _mzd_addmul (mzd_transpose_any junk mb) (e []).mul true 40 W (mzd_window L 0 512 512 1000) (mzd_window N1 512 0 1000 c)) (err := .oob)]
  · rfl
  unfold _mzd_addmul
  have hfit : ∀ a, a < 2 ^ 29 → closerOverflows a 40 = false := by
    intro a ha
    unfold closerOverflows
    rw [Bool.or_eq_false_iff]
    constructor <;> rw [decide_eq_false_iff_not] <;> omega
  rw [if_neg (by rw [rA.nrows, rA.ncols, rB.ncols]; unfold productOverflows; rw [hfit _ (by omega), hfit _ (by omega), hfit _ (by omega)]; simp), rA.nrows]
  have hmin : min (min 512 c) (1000 - 512) / 2 = 244 := by omega
  refine addmul_even_crash' (fuel := 511) (mu := 512) (p := 256) (q := 256) _ _ _ rX rA rB (by omega) (by omega) (by omega) (by omega) ?_ (by decide +kernel) ?_ (by decide +kernel) (by omega) (by omega)
  · rw [hmin, multOf_step (by omega), multOf_step (by omega), multOf_step (by omega), multOf_stop (by omega)]
  · unfold halfOf
    omega

/-- A right-hand side without columns. -/
theorem no_columns {L M : Mzd} (wL : L.Wf) (lr : L.nrows = n) (lc : L.ncols = n) (hr : M.nrows = n) (hc : M.ncols = 0) (hn : 2 ≤ n) (hb : L.bit 1 0 = true) : lowerLeftBase L M = .error .oob := by
  unfold lowerLeftBase
  refine forUp_first (by omega) (forUp_first (by omega) ?_)
  beta_reduce
  rw [getBit0_spec wL (by omega) (by omega) (by omega), C_ok_bind, if_pos hb]
  unfold xorRow
  exact if_pos (by unfold Mzd.width; rw [hc])

end WB.m4w
