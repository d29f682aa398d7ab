import Mathlib.Analysis.SpecialFunctions.Gamma.Basic
import Mathlib.Analysis.Complex.ExponentialBounds
import Verif.Model.SpTemplate
import Verif.Proof.SpFreq
import Verif.Prop.C94

/-!
# Templates (helper lemmas)
-/
namespace WB.sp

theorem slice_occurs {l w : List Nat} {p : Nat} : slice l p (p + w.length) = w ↔ OccursAt l w p := by
  rw [slice, OccursAt, List.drop_take, Nat.add_sub_cancel_left]

theorem occursAt_get {l w : List Nat} {p : Nat} (h : OccursAt l w p) {i : Nat} (hi : i < w.length) : l[p + i]? = w[i]? := by
  have := congrArg (·[i]?) h
  simp only [List.getElem?_take, List.getElem?_drop, if_pos hi] at this
  exact this

theorem unbordered_disjoint {l w : List Nat} (hw : Unbordered w) {p d : Nat} (h : OccursAt l w p) (h0 : 0 < d) (hd : d < w.length) :
    ¬ OccursAt l w (p + d) := fun h' => hw d hd h0 <| List.ext_getElem? fun i => by
  rw [List.getElem?_drop, List.getElem?_take]
  by_cases hi : i < w.length - d
  · rw [if_pos hi, ← occursAt_get h (by omega), ← occursAt_get h' (by omega)]
    congr 1
    omega
  · rw [if_neg hi, List.getElem?_eq_none (by omega)]

theorem occurrences_succ (l w : List Nat) (k : Nat) : occurrences l w (k + 1) = occurrences l w k + if OccursAt l w k then 1 else 0 := by
  unfold occurrences
  rw [Finset.range_add_one, Finset.filter_insert]
  by_cases h : OccursAt l w k
  · rw [if_pos h, if_pos h, Finset.card_insert_of_notMem (by simp)]
  · rw [if_neg h, if_neg h, add_zero]

theorem occurrences_skip {l w : List Nat} (hw : Unbordered w) {p : Nat} (h : OccursAt l w p) (d : Nat) (hd : d < w.length) :
    occurrences l w (p + 1 + d) = occurrences l w p + 1 := by
  induction d with
  | zero => rw [Nat.add_zero, occurrences_succ, if_pos h]
  | succ d ih =>
    rw [← add_assoc, occurrences_succ, ih (by omega), if_neg]
    rw [show p + 1 + d = p + (d + 1) by omega]
    exact unbordered_disjoint hw h (by omega) hd

theorem scan_run {M : Nat} {B block : List Nat} (hB : Unbordered B) (h0 : B ≠ []) :
    ∀ fuel position count, M < fuel + position → position ≤ M → count = occurrences block B (min position (M - B.length)) →
    scan M B block fuel position count = .ok (occurrences block B (M - B.length)) := by
  have hB0 := List.length_pos_iff.2 h0
  intro fuel
  induction fuel with
  | zero => intro p c h1 h2; omega
  | succ fuel ih =>
    intro p c h1 h2 hc
    rw [scan]
    by_cases hp : (p : ℤ) < (M : ℤ) - B.length
    · rw [if_pos hp]
      rw [Nat.min_eq_left (by omega)] at hc
      simp only [slice_occurs]
      by_cases ho : OccursAt block B p
      · rw [if_pos ho]
        refine ih _ _ (by omega) (by omega) ?_
        rw [hc]
        obtain ⟨d, hd, hd'⟩ : ∃ d, min (p + B.length) (M - B.length) = p + 1 + d ∧ d < B.length :=
          ⟨min (p + B.length) (M - B.length) - (p + 1), by omega, by omega⟩
        rw [hd, occurrences_skip hB ho d hd']
      · rw [if_neg ho]
        refine ih _ _ (by omega) (by omega) ?_
        rw [Nat.min_eq_left (by omega), occurrences_succ, if_neg ho, hc, add_zero]
    · rw [if_neg hp, C_pure_eq, hc, Nat.min_eq_right (by omega)]

theorem template_counts_run {N M : Nat} {B bits : List Nat} (hB : Unbordered B) (h0 : B ≠ []) :
    template_counts N M B bits = .ok ((List.range N).map fun i => occurrences (part bits M i) B (M - B.length)) := by
  unfold template_counts
  simp only
  have : ∀ (l : List Nat) (acc : List Nat),
      (l.map fun i => slice bits (i * M) ((i + 1) * M)).foldlM (fun W block => do pure (W ++ [← scan M B block (M + 1) 0 0])) acc =
      (.ok (acc ++ l.map fun i => occurrences (part bits M i) B (M - B.length)) : C (List Nat)) := by
    intro l
    induction l with
    | nil => intro acc; simp [C_pure_eq]
    | cons i l ih =>
      intro acc
      rw [List.map_cons, List.foldlM_cons, scan_run hB h0 _ _ _ (by omega) (by omega) (by simp [occurrences]), C_pure_bind, C_pure_eq,
        C_pure_bind, ih]
      simp [slice_part]
  rw [this]
  rfl

theorem variance_eq (M m : Nat) : variance M m = M * (2 ^ m - (2 * m - 1)) / (2 ^ m) ^ 2 := by
  unfold variance
  rw [mul_comm 2 m, pow_mul]
  field_simp

theorem variance_pos {M : Nat} (hM : M ≠ 0) (m : Nat) : 0 < variance M m := by
  have h1 : (0 : ℚ) < M := by exact_mod_cast Nat.pos_of_ne_zero hM
  have h2 : (2 : ℚ) * m - 1 < 2 ^ m := by
    have : ∀ m : Nat, 2 * m < 2 ^ m + 1 := fun m => by
      induction m with
      | zero => decide
      | succ k ih =>
        rw [pow_succ]
        rcases k with _ | k
        · decide
        · have : 2 ≤ 2 ^ (k + 1) := by
            rw [pow_succ]
            have := Nat.one_le_two_pow (n := k)
            omega
          omega
    have : ((2 * m : Nat) : ℚ) < ((2 ^ m + 1 : Nat) : ℚ) := by exact_mod_cast this m
    push_cast at this
    linarith
  rw [variance_eq]
  have h3 : (0 : ℚ) < 2 ^ m - (2 * m - 1) := by linarith
  positivity

theorem template_chisq_run {N M m : Nat} {W : List Nat} (hM : M ≠ 0) (hW : W.length = N) :
    template_chisq N M m W = .ok ((∑ j ∈ Finset.range N, ((W[j]?.getD 0 : Nat) - mean M m) ^ 2 / variance M m) / variance M m) := by
  have hv := (variance_pos hM m).ne'
  unfold template_chisq
  simp only
  rw [← Ok.eq]
  refine Ok.forUp (P := fun i x => x = (∑ j ∈ Finset.range i, (((W[j]?.getD 0 : Nat) : ℚ) - mean M m) ^ 2 / variance M m) / variance M m)
    (Nat.zero_le _) (by simp) ?_ fun _ h => h
  rintro i x - hi rfl
  rw [ix_getD 0 (by omega)]
  simp only [C_pure_bind]
  change Ok ((qdiv (((W[i]?.getD 0 : Nat) - mean M m) ^ 2) (variance M m ^ 2)) >>= _) _
  rw [qdiv, if_neg (pow_ne_zero 2 hv), C_pure_bind, C_pure_eq, Ok.ok_iff, Finset.sum_range_succ, add_div, div_div, ← pow_two]

theorem template_chisq_zero {m : Nat} {W : List Nat} (hW : 0 < W.length) : template_chisq 8 0 m W = .error .divZero := by
  unfold template_chisq
  simp only [Nat.cast_zero, zero_mul]
  unfold forUp
  rw [show List.range' 0 (8 - 0) = 0 :: List.range' 1 7 from rfl, List.foldlM_cons]
  simp only
  rw [ix_getD 0 hW]
  simp only [C_pure_bind]
  rw [qdiv, if_pos (by norm_num)]
  rfl

theorem count_template_run (M : Nat) (B block : List Nat) : count_template M B block = occurrences block B (M - B.length) := by
  unfold count_template
  induction (M - B.length) with
  | zero => rfl
  | succ k ih =>
    rw [List.range_succ, List.foldl_append, ih, occurrences_succ]
    simp only [slice_occurs, List.foldl_cons, List.foldl_nil]
    split <;> rfl

theorem overlapping_counts_run {N M K : Nat} {B bits : List Nat} : Ok (overlapping_counts N M K B bits) fun v => v.length = K + 1 ∧
    ∀ k, k ≤ K → v[k]?.getD 0 = ((Finset.range N).filter fun i => min K (occurrences (part bits M i) B (M - B.length)) = k).card := by
  unfold overlapping_counts
  simp only [count_template_run]
  have h := count_run (fun block => if occurrences block B (M - B.length) ≥ K then K else occurrences block B (M - B.length))
    ((List.range N).map fun i => slice bits (i * M) ((i + 1) * M)) (List.replicate (K + 1) 0)
    (fun t _ => by simp only [List.length_replicate]; split <;> omega)
  refine h.mono ?_
  rintro v ⟨h1, h2⟩
  rw [List.length_replicate] at h1 h2
  refine ⟨h1, fun k hk => ?_⟩
  rw [h2 k (by omega), List.getElem?_replicate, if_pos (by omega), Option.getD_some, zero_add, List.countP_map]
  rw [List.countP_eq_length_filter, Finset.card_def, Finset.filter_val, Finset.range_val, ← Multiset.coe_range, Multiset.filter_coe,
    Multiset.coe_card]
  congr 1
  refine List.filter_congr fun i _ => ?_
  simp only [Function.comp, slice_part]
  rw [Bool.eq_iff_iff, beq_iff_eq, decide_eq_true_iff]
  refine Eq.congr_left ?_
  split <;> omega

theorem Pr_zero (eta : ℝ) : Pr 0 eta = Real.exp (-eta) := by simp [Pr]

theorem Pr_pos {u : Nat} {eta : ℝ} (hu : u ≠ 0) (h : 0 < eta) : Pr u eta =
    Real.exp (-eta) / 2 ^ u * ∑ l ∈ Finset.range u, ((u - 1).choose l : ℝ) * (eta ^ (l + 1) / (l + 1).factorial) := by
  unfold Pr
  rw [if_neg hu, List.foldl_map]
  have key : ∀ l, l < u → Real.exp (-eta - u * Real.log 2 + ((l + 1 : Nat) : ℝ) * Real.log eta - lgamma ((l + 1 : Nat) + 1) + lgamma u - lgamma ((l + 1 : Nat)) -
      lgamma (u - (l + 1 : Nat) + 1)) = Real.exp (-eta) / 2 ^ u * (((u - 1).choose l : ℝ) * (eta ^ (l + 1) / (l + 1).factorial)) := by
    intro l hl
    obtain ⟨k, rfl⟩ : ∃ k, u = l + 1 + k := ⟨u - (l + 1), by omega⟩
    have g1 : Real.Gamma ((l + 1 : Nat) + 1) = (l + 1).factorial := Real.Gamma_nat_eq_factorial _
    have g2 : Real.Gamma ((l + 1 + k : Nat) : ℝ) = (l + k).factorial := by
      rw [← Real.Gamma_nat_eq_factorial]; congr 1; push_cast; ring
    have g3 : Real.Gamma ((l + 1 : Nat) : ℝ) = l.factorial := by
      rw [← Real.Gamma_nat_eq_factorial]; congr 1; push_cast; ring
    have g4 : Real.Gamma ((l + 1 + k : Nat) - (l + 1 : Nat) + 1) = k.factorial := by
      rw [← Real.Gamma_nat_eq_factorial]; congr 1; push_cast; ring
    unfold lgamma
    rw [g1, g2, g3, g4, Real.exp_sub, Real.exp_sub, Real.exp_add, Real.exp_sub, Real.exp_add, Real.exp_sub]
    rw [Real.exp_log (by positivity), Real.exp_log (by positivity), Real.exp_log (by positivity), Real.exp_log (by positivity),
      Real.exp_nat_mul, Real.exp_nat_mul, Real.exp_log (by positivity), Real.exp_log (by positivity)]
    have hc : ((l + k).choose l : ℝ) = (l + k).factorial / (l.factorial * k.factorial) := by
      rw [Nat.cast_choose ℝ (Nat.le_add_right l k), Nat.add_sub_cancel_left]
    rw [show l + 1 + k - 1 = l + k by omega, hc]
    field_simp
  have : ∀ n, n ≤ u → (List.range n).foldl (fun sum (l : Nat) => sum + Real.exp (-eta - u * Real.log 2 + ((l + 1 : Nat) : ℝ) * Real.log eta - lgamma ((l + 1 : Nat) + 1) +
      lgamma u - lgamma ((l + 1 : Nat)) - lgamma (u - (l + 1 : Nat) + 1))) 0 =
      Real.exp (-eta) / 2 ^ u * ∑ l ∈ Finset.range n, ((u - 1).choose l : ℝ) * (eta ^ (l + 1) / (l + 1).factorial) := by
    intro n
    induction n with
    | zero => intro _; simp
    | succ n ih =>
      intro hn
      rw [List.range_succ, List.foldl_append, ih (by omega), Finset.sum_range_succ, mul_add, ← key n (by omega)]
      rfl
  exact this u (le_refl _)

theorem Pr_positive {eta : ℝ} (h : 0 < eta) (u : Nat) : 0 < Pr u eta := by
  rcases eq_or_ne u 0 with rfl | hu
  · rw [Pr_zero]; exact Real.exp_pos _
  · rw [Pr_pos hu h]
    refine mul_pos (by positivity) (Finset.sum_pos' (fun l _ => by positivity) ⟨0, by simp; omega, ?_⟩)
    simp only [Nat.choose_zero_right]
    positivity

/-- the five probabilities leave something over -/
theorem Pr_sum_lt {eta : ℝ} (h : 0 < eta) : ∑ i ∈ Finset.range 5, Pr i eta < 1 := by
  have h1 : ∑ k ∈ Finset.range 5, eta ^ k / (k.factorial : ℝ) ≤ Real.exp eta := Real.sum_le_exp_of_nonneg h.le _
  have h2 : ∑ i ∈ Finset.range 5, Pr i eta = Real.exp (-eta) *
      (1 + 15 / 16 * eta + 11 / 16 * (eta ^ 2 / 2) + 5 / 16 * (eta ^ 3 / 6) + 1 / 16 * (eta ^ 4 / 24)) := by
    rw [Finset.sum_range_succ', Pr_zero]
    simp only [Finset.sum_range_succ, Finset.sum_range_zero]
    rw [Pr_pos (by decide) h, Pr_pos (by decide) h, Pr_pos (by decide) h, Pr_pos (by decide) h]
    simp only [Finset.sum_range_succ, Finset.sum_range_zero, Nat.choose, Nat.factorial]
    push_cast
    ring
  rw [h2, Real.exp_neg, inv_mul_lt_one₀ (Real.exp_pos _)]
  refine lt_of_lt_of_le ?_ h1
  simp only [Finset.sum_range_succ, Finset.sum_range_zero, Nat.factorial]
  push_cast
  have h2 : 0 < eta ^ 2 := by positivity
  have h3 : 0 < eta ^ 3 := by positivity
  have h4 : 0 < eta ^ 4 := by positivity
  linarith

theorem foldl_add (l : List ℝ) : ∀ c, l.foldl (· + ·) c = c + l.sum := by
  induction l with
  | nil => simp
  | cons a l ih => intro c; rw [List.foldl_cons, ih, List.sum_cons, add_assoc]

theorem sum_range_list (f : Nat → ℝ) (K : Nat) : ((List.range K).map f).sum = ∑ i ∈ Finset.range K, f i := by
  induction K with
  | zero => rfl
  | succ K ih => rw [List.range_succ, List.map_append, List.sum_append, ih, Finset.sum_range_succ]; simp

theorem overlapping_probs_get {M m K : Nat} {k : Nat} (hk : k ≤ K) : (overlapping_probs M m K)[k]?.getD 0 =
    if k < K then Pr k (((M : ℝ) - m + 1) / 2 ^ m / 2) else 1 - ∑ i ∈ Finset.range K, Pr i (((M : ℝ) - m + 1) / 2 ^ m / 2) := by
  unfold overlapping_probs
  simp only
  rw [foldl_add, zero_add, sum_range_list]
  by_cases h : k < K
  · rw [if_pos h, List.getElem?_append_left (by simpa using h), List.getElem?_map, List.getElem?_range h]
    rfl
  · rw [if_neg h, List.getElem?_append_right (by simp; omega), List.length_map, List.length_range, show k - K = 0 by omega]
    rfl

theorem overlapping_chisq_run {N K : Nat} (hN : N ≠ 0) {v : List Nat} {pi : List ℝ} (hv : v.length = K + 1) (hp : pi.length = K + 1)
    (h0 : ∀ k, k ≤ K → pi[k]?.getD 0 ≠ 0) : overlapping_chisq N K v pi =
    .ok (∑ k ∈ Finset.range (K + 1), ((v[k]?.getD 0 : Nat) - N * pi[k]?.getD 0) ^ 2 / (N * pi[k]?.getD 0)) := by
  have hN' : (N : ℝ) ≠ 0 := by exact_mod_cast hN
  unfold overlapping_chisq
  rw [← Ok.eq]
  refine Ok.forUp (P := fun i x => x = ∑ k ∈ Finset.range i, (((v[k]?.getD 0 : Nat) : ℝ) - N * pi[k]?.getD 0) ^ 2 / (N * pi[k]?.getD 0))
    (Nat.zero_le _) (by simp) ?_ fun _ h => h
  rintro i x - hi rfl
  rw [ix_getD 0 (show i < v.length by omega), ix_getD (l := pi) 0 (by omega)]
  simp only [C_pure_bind]
  rw [rdiv_ok (mul_ne_zero hN' (h0 i (by omega))), C_pure_bind, C_pure_eq, Ok.ok_iff, Finset.sum_range_succ]

end WB.sp
