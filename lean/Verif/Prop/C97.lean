import Verif.Proof.SpTemplate

/-!
# C97 — the template tests (`/repo/test/randomness`)
-/
namespace WB.sp

/-- C97: the templates of the non-overlapping test are all words of two to eight bits that cannot overlap themselves, each of them
once. -/
theorem C97_templates : templates.length = 7 ∧ ∀ k, k < 7 → (templates[k]?.getD []).Nodup ∧
    ∀ w, w ∈ templates[k]?.getD [] ↔ w.length = k + 2 ∧ Bits w ∧ Unbordered w := by
  refine ⟨rfl, fun k hk => ?_⟩
  have hd : ∀ k : Fin 7, (templates[(k : Nat)]?.getD []).Nodup ∧
      (∀ w ∈ templates[(k : Nat)]?.getD [], w.length = k + 2 ∧ ∀ x ∈ w, x < 2) ∧
      ∀ w : Fin (k + 2) → Fin 2, (List.ofFn fun i => (w i : Nat)) ∈ templates[(k : Nat)]?.getD [] ↔
        ∀ d : Fin (k + 2), 0 < (d : Nat) → (List.ofFn fun i => (w i : Nat)).drop d ≠ (List.ofFn fun i => (w i : Nat)).take (k + 2 - d) := by
    decide +kernel
  obtain ⟨h1, h2, h3⟩ := hd ⟨k, hk⟩
  simp only at h1 h2 h3
  refine ⟨h1, fun w => ?_⟩
  have key : w.length = k + 2 → Bits w → (w ∈ templates[k]?.getD [] ↔ Unbordered w) := fun hl hb => by
    have e : (List.ofFn fun i : Fin (k + 2) => ((⟨w[(i : Nat)], hb _ (List.getElem_mem _)⟩ : Fin 2) : Nat)) = w := by
      refine List.ext_getElem (by rw [List.length_ofFn, hl]) fun i _ _ => by rw [List.getElem_ofFn]
    have := h3 fun i => ⟨w[(i : Nat)], hb _ (List.getElem_mem _)⟩
    rw [e] at this
    rw [this]
    refine ⟨fun h d hd' h0 => ?_, fun h d h0 => ?_⟩
    · rw [hl]
      exact h ⟨d, by omega⟩ h0
    · have := h d (by omega) h0
      rwa [hl] at this
  refine ⟨fun h => ⟨(h2 w h).1, (h2 w h).2, (key (h2 w h).1 (h2 w h).2).1 h⟩, fun h => (key h.1 h.2.1).2 h.2.2⟩

/-- C97: the template that the test uses, whatever the random choices, is one of them. -/
theorem C97_choice (r1 r2 : Nat) (bits : List Nat) : ∃ B, 2 ≤ B.length ∧ B.length ≤ 8 ∧ B.length = r1 % 7 + 2 ∧ Bits B ∧ Unbordered B ∧
    non_overlapping_template_matching_test r1 r2 bits = non_overlapping_with B bits := by
  have hk : r1 % 7 < 7 := Nat.mod_lt _ (by decide)
  obtain ⟨-, h2⟩ := C97_templates.2 _ hk
  have hne : ∀ k : Fin 7, (templates[(k : Nat)]?.getD []).length ≠ 0 := by decide
  have hj : r2 % (templates[r1 % 7]?.getD []).length < (templates[r1 % 7]?.getD []).length :=
    Nat.mod_lt _ (Nat.pos_of_ne_zero (hne ⟨_, hk⟩))
  obtain ⟨g1, g2, g3⟩ := (h2 _).1 (List.getElem_mem hj)
  refine ⟨_, ?_, ?_, g1, g2, g3, ?_⟩
  · omega
  · omega
  · unfold non_overlapping_template_matching_test
    rw [show templates.length = 7 from rfl, ix_getD [] (by exact hk), C_pure_bind]
    rw [ix_ok hj, C_pure_bind]

/-- C97, full statement of the first part: the number that is computed for a block is the number of occurrences of the template. -/
def C97_count_statement : Prop := ∀ (B block : List Nat), Unbordered B → B ≠ [] → B.length ≤ block.length →
  scan block.length B block (block.length + 1) 0 0 = .ok (occurrences block B (block.length - B.length + 1))

/-- C97, what holds: it is the number of occurrences that do not stand at the end of the block. -/
theorem C97_count_partial {B block : List Nat} (hB : Unbordered B) (h0 : B ≠ []) :
    scan block.length B block (block.length + 1) 0 0 = .ok (occurrences block B (block.length - B.length)) :=
  scan_run hB h0 _ _ _ (by omega) (by omega) (by simp [occurrences])

/-- C97, what goes wrong: for every block that ends with the template, the number is too small by one. -/
theorem C97_count_violated {B block : List Nat} (hB : Unbordered B) (h0 : B ≠ []) (h : OccursAt block B (block.length - B.length)) :
    ∃ c, scan block.length B block (block.length + 1) 0 0 = .ok c ∧ occurrences block B (block.length - B.length + 1) = c + 1 :=
  ⟨_, C97_count_partial hB h0, by rw [occurrences_succ, if_pos h]⟩

theorem C97_statement_violated : ¬ C97_count_statement := fun h => by
  have h1 := h [0, 1] [0, 1] (by unfold Unbordered; decide) (by decide) (by decide)
  exact absurd h1 (by decide)

/-- What the non-overlapping test computes from the numbers of occurrences: the statistic of SP 800-22, divided by the variance. -/
noncomputable def matching (B bits : List Nat) : ℚ :=
  (∑ j ∈ Finset.range 8, ((occurrences (part bits (bits.length / 8) j) B (bits.length / 8 - B.length) : ℚ) -
    mean (bits.length / 8) B.length) ^ 2 / variance (bits.length / 8) B.length)

theorem non_overlapping_run {B bits : List Nat} (hB : Unbordered B) (h0 : B ≠ []) (hn : 8 ≤ bits.length) :
    non_overlapping_with B bits =
      (do let p ← gammaincc (4 : Nat) ((matching B bits / variance (bits.length / 8) B.length : ℚ) / 2); pure (result p)) := by
  have hM : bits.length / 8 ≠ 0 := by omega
  unfold non_overlapping_with
  simp only
  rw [template_counts_run hB h0, C_pure_bind, template_chisq_run hM (by simp), C_pure_bind]
  have e : ((8 : Nat) : ℝ) / 2 = (4 : Nat) := by norm_num
  rw [e]
  have e2 : (∑ j ∈ Finset.range 8, ((((List.range 8).map fun i => occurrences (part bits (bits.length / 8) i) B (bits.length / 8 - B.length))[j]?.getD 0 : Nat) -
      mean (bits.length / 8) B.length) ^ 2 / variance (bits.length / 8) B.length) = matching B bits := by
    unfold matching
    refine Finset.sum_congr rfl fun j hj => ?_
    rw [List.getElem?_map, List.getElem?_range (Finset.mem_range.1 hj)]
    rfl
  rw [e2]

/-- C97, what is computed: the P value of the non-overlapping test is the probability for the statistic of SP 800-22 **divided by the variance of the number
of occurrences**. -/
theorem C97_p_partial {B bits : List Nat} (hB : Unbordered B) (h0 : B ≠ []) (hn : 8 ≤ bits.length) (h : matching B bits ≠ 0) :
    non_overlapping_with B bits = .ok (result (upperGamma 4 ((matching B bits : ℝ) / variance (bits.length / 8) B.length / 2))) := by
  have hM : bits.length / 8 ≠ 0 := by omega
  have hv := variance_pos hM B.length
  have hm : 0 < matching B bits := by
    refine lt_of_le_of_ne (Finset.sum_nonneg fun j _ => ?_) h.symm
    positivity
  have hp : (0 : ℝ) < (matching B bits / variance (bits.length / 8) B.length : ℚ) / 2 := by
    have : (0 : ℝ) < (matching B bits / variance (bits.length / 8) B.length : ℚ) := by exact_mod_cast div_pos hm hv
    linarith
  rw [non_overlapping_run hB h0 hn, C94_whole_partial (by decide) (by decide) hp, C_pure_bind, C_pure_eq]
  push_cast
  rfl

/-- C97: if it is 0, or there are fewer than eight bits, there is a division by zero. -/
theorem C97_zero {B bits : List Nat} (hB : Unbordered B) (h0 : B ≠ []) (h : bits.length < 8 ∨ matching B bits = 0) :
    non_overlapping_with B bits = .error .divZero := by
  by_cases hn : bits.length < 8
  · unfold non_overlapping_with
    simp only
    rw [template_counts_run hB h0, C_pure_bind, Nat.div_eq_of_lt hn, template_chisq_zero (by simp)]
    rfl
  · rw [non_overlapping_run hB h0 (by omega), h.resolve_left hn, zero_div, Rat.cast_zero, zero_div,
      (C94_zero_whole_violated (by decide) (by decide)).1]
    rfl

theorem upperGamma_four {x : ℝ} (h0 : 0 ≤ x) (h8 : x ≤ 8) : 0.01 ≤ upperGamma 4 x := by
  have h := upperGamma_nat (p := 3) h0
  rw [show (((3 + 1 : Nat) : ℝ)) = 4 by norm_num] at h
  rw [h]
  simp only [Finset.sum_range_succ, Finset.sum_range_zero, Nat.factorial]
  -- the function decreases: compare with the value at 8
  have e8 : Real.exp 8 ≤ 2990 := by
    have h1 := Real.exp_one_lt_d9
    have : Real.exp 8 = Real.exp 1 ^ 8 := by rw [← Real.exp_nat_mul]; norm_num
    rw [this]
    calc Real.exp 1 ^ 8 ≤ 2.7182818286 ^ 8 := pow_le_pow_left₀ (Real.exp_pos _).le h1.le _
      _ ≤ 2990 := by norm_num
  have e : Real.exp x = Real.exp 8 / Real.exp (8 - x) := by
    rw [← Real.exp_sub]; congr 1; ring
  have h3 : 1 + (8 - x) + (8 - x) ^ 2 / 2 ≤ Real.exp (8 - x) := Real.quadratic_le_exp_of_nonneg (by linarith)
  have hpos := Real.exp_pos (8 - x)
  rw [Real.exp_neg, e, inv_div, div_mul_eq_mul_div, le_div_iff₀ (Real.exp_pos _)]
  push_cast
  have hS : (30 : ℝ) ≤ Real.exp (8 - x) * (0 + x ^ 0 / 1 + x ^ 1 / (1 * 1) + x ^ 2 / (2 * 1) + x ^ 3 / (3 * (2 * 1))) := by
    have : (30 : ℝ) ≤ (1 + (8 - x) + (8 - x) ^ 2 / 2) * (1 + x + x ^ 2 / 2 + x ^ 3 / 6) := by
      nlinarith [mul_nonneg h0 (sub_nonneg.2 h8), mul_nonneg (mul_nonneg h0 h0) (sub_nonneg.2 h8),
        mul_nonneg (mul_nonneg (mul_nonneg h0 h0) h0) (sub_nonneg.2 h8), mul_nonneg (mul_nonneg h0 (sub_nonneg.2 h8)) (sub_nonneg.2 h8),
        sq_nonneg (x - 8), mul_nonneg (mul_nonneg (mul_nonneg h0 h0) (sub_nonneg.2 h8)) (sub_nonneg.2 h8)]
    refine le_trans this (le_trans (mul_le_mul_of_nonneg_right h3 (by positivity)) (le_of_eq ?_))
    ring
  norm_num at hS ⊢
  linarith

/-- C97, what goes wrong: a template of five to eight bits that **does not occur at all** is no reason to reject the bits, however many
there are. -/
theorem C97_absent_violated {B bits : List Nat} (hB : Unbordered B) (h5 : 5 ≤ B.length) (h8 : B.length ≤ 8)
    (hn : 8 * B.length ≤ bits.length) (h : ∀ j < 8, ∀ p, ¬ OccursAt (part bits (bits.length / 8) j) B p) :
    ∃ r, non_overlapping_with B bits = .ok r ∧ r.success := by
  have h0 : B ≠ [] := by
    rintro rfl
    simp at h5
  have hMm : B.length ≤ bits.length / 8 := by omega
  have hMq : (B.length : ℚ) ≤ (bits.length / 8 : Nat) := by exact_mod_cast hMm
  have hM0 : (0 : ℚ) < (bits.length / 8 : Nat) := by exact_mod_cast (by omega : 0 < bits.length / 8)
  have hv := variance_pos (by omega : bits.length / 8 ≠ 0) B.length
  have hmean : 0 < mean (bits.length / 8) B.length := by
    unfold mean
    have : (0 : ℚ) < ((bits.length / 8 : Nat) : ℚ) - B.length + 1 := by linarith
    positivity
  have hmat : matching B bits = 8 * (mean (bits.length / 8) B.length ^ 2 / variance (bits.length / 8) B.length) := by
    unfold matching
    rw [Finset.sum_congr rfl (g := fun _ => mean (bits.length / 8) B.length ^ 2 / variance (bits.length / 8) B.length)]
    · simp
    · intro j hj
      rw [occurrences, Finset.filter_false_of_mem fun p _ => h j (Finset.mem_range.1 hj) p, Finset.card_empty, Nat.cast_zero, zero_sub,
        neg_sq]
  have hm0 : matching B bits ≠ 0 := by
    rw [hmat]
    positivity
  refine ⟨_, C97_p_partial hB h0 (by omega) hm0, ?_⟩
  have hq : matching B bits / variance (bits.length / 8) B.length / 2 = 4 * (mean (bits.length / 8) B.length / variance (bits.length / 8) B.length) ^ 2 := by
    rw [hmat]
    field_simp
    norm_num
  have hr : mean (bits.length / 8) B.length / variance (bits.length / 8) B.length ≤ 32 / 23 := by
    rw [div_le_div_iff₀ hv (by norm_num), variance_eq]
    unfold mean
    have hb : (23 / 32 : ℚ) * 2 ^ B.length ≤ 2 ^ B.length - (2 * B.length - 1) := by
      have : ∀ m : Fin 9, 5 ≤ (m : Nat) → (23 / 32 : ℚ) * 2 ^ (m : Nat) ≤ 2 ^ (m : Nat) - (2 * (m : Nat) - 1) := by decide +kernel
      exact this ⟨B.length, by omega⟩ h5
    have hp : (0 : ℚ) < 2 ^ B.length := by positivity
    have h5' : (5 : ℚ) ≤ B.length := by exact_mod_cast h5
    generalize ((bits.length / 8 : Nat) : ℚ) = M at hM0 hMq ⊢
    generalize (2 : ℚ) ^ B.length = P at hb hp ⊢
    generalize (B.length : ℚ) = m at hb hMq h5' ⊢
    rw [div_mul_eq_mul_div, mul_div_assoc', div_le_div_iff₀ hp (by positivity)]
    have : M * (23 / 32 * P) ≤ M * (P - (2 * m - 1)) := mul_le_mul_of_nonneg_left hb hM0.le
    have h6 : (M - m + 1) * 23 * P ^ 2 ≤ M * 23 * P ^ 2 := by
      refine mul_le_mul_of_nonneg_right ?_ (by positivity)
      linarith
    nlinarith
  have hx : (matching B bits : ℝ) / variance (bits.length / 8) B.length / 2 =
      ((4 * (mean (bits.length / 8) B.length / variance (bits.length / 8) B.length) ^ 2 : ℚ) : ℝ) := by
    rw [← hq]
    push_cast
    rfl
  have hr0 : 0 ≤ mean (bits.length / 8) B.length / variance (bits.length / 8) B.length := by positivity
  have hsq : 4 * (mean (bits.length / 8) B.length / variance (bits.length / 8) B.length) ^ 2 ≤ 8 := by nlinarith
  rw [hx]
  exact upperGamma_four (by exact_mod_cast (by positivity)) (by exact_mod_cast hsq)

/-- C97, what goes wrong: with a template of at least five bits, the test accepts the sequence that consists of zeros only, or of ones
only, of any length from 64 bits. -/
theorem C97_constant_violated {b n r1 r2 : Nat} (hr : 3 ≤ r1 % 7) (hn : 64 ≤ n) :
    ∃ r, non_overlapping_template_matching_test r1 r2 (List.replicate n b) = .ok r ∧ r.success := by
  obtain ⟨B, h2, h8, hl, hb, hB, he⟩ := C97_choice r1 r2 (List.replicate n b)
  rw [he]
  refine C97_absent_violated hB (by omega) h8 (by rw [List.length_replicate]; omega) ?_
  intro j hj p h
  -- all bits of the template would be equal
  have hall : ∀ i, i < B.length → B[i]? = some b := fun i hi => by
    have h1 := occursAt_get h hi
    rw [part, List.drop_replicate, List.take_replicate, List.getElem?_replicate] at h1
    split at h1
    · exact h1.symm
    · rw [List.getElem?_eq_getElem hi] at h1
      simp at h1
  refine hB 1 (by omega) (by decide) (List.ext_getElem? fun i => ?_)
  rw [List.getElem?_drop, List.getElem?_take]
  by_cases hi : i < B.length - 1
  · rw [if_pos hi, hall _ (by omega), hall _ (by omega)]
  · rw [if_neg hi, List.getElem?_eq_none (by omega)]

/-- The probability of `u` occurrences of the template in a block of the overlapping test (SP 800-22, 3.8). -/
noncomputable def overlapProb (eta : ℝ) (u : Nat) : ℝ :=
  if u = 0 then Real.exp (-eta)
  else Real.exp (-eta) / 2 ^ u * ∑ l ∈ Finset.Icc 1 u, ((u - 1).choose (l - 1) : ℝ) * (eta ^ l / l.factorial)

/-- The probabilities of the classes: 0, 1, 2, 3, 4 occurrences, and five or more. -/
noncomputable def blockProb (eta : ℝ) (k : Nat) : ℝ :=
  if k < 5 then overlapProb eta k else 1 - ∑ i ∈ Finset.range 5, overlapProb eta i

theorem Pr_eq {eta : ℝ} (h : 0 < eta) (u : Nat) : Pr u eta = overlapProb eta u := by
  unfold overlapProb
  by_cases hu : u = 0
  · rw [if_pos hu, hu, Pr_zero]
  · rw [if_neg hu, Pr_pos hu h]
    refine congrArg _ (Finset.sum_bij (fun l _ => l + 1) ?_ ?_ ?_ ?_)
    · intro l hl
      rw [Finset.mem_range] at hl
      rw [Finset.mem_Icc]
      omega
    · intro a _ b _ h
      omega
    · intro l hl
      rw [Finset.mem_Icc] at hl
      exact ⟨l - 1, by rw [Finset.mem_range]; omega, by omega⟩
    · intro l _
      rw [Nat.add_sub_cancel]

/-- C97: all classes have positive probabilities. -/
theorem C97_probs {eta : ℝ} (h : 0 < eta) (k : Nat) : 0 < blockProb eta k := by
  unfold blockProb
  split
  · rw [← Pr_eq h]
    exact Pr_positive h k
  · simp only [← Pr_eq h]
    have := Pr_sum_lt h
    linarith

/-- C97: from 1028016 bits on, the P value of the overlapping test is computed from the numbers `v k` of the first 968 blocks of 1062
bits with `k` occurrences of ten ones (five or more for `k = 5`) and the probabilities of SP 800-22, where again the occurrence at the
end of a block is not counted. -/
theorem C97_overlapping {bits : List Nat} (hn : 1028016 ≤ bits.length) :
    let c := fun i => occurrences (part bits 1062 i) (List.replicate 10 1) 1052
    let v := fun k => ((Finset.range 968).filter fun i => min 5 (c i) = k).card
    let pi := blockProb (1053 / 2048)
    let chisq : ℝ := ∑ k ∈ Finset.range 6, ((v k : ℝ) - 968 * pi k) ^ 2 / (968 * pi k)
    overlapping_template_matching_test bits = (gammaincc (5 / 2) (chisq / 2)).map result := by
  intro c v pi chisq
  have heta : (((1062 : Nat) : ℝ) - ((10 : Nat) : ℝ) + 1) / 2 ^ 10 / 2 = 1053 / 2048 := by norm_num
  have h0 : (0 : ℝ) < 1053 / 2048 := by norm_num
  have hpi : ∀ k, k ≤ 5 → (overlapping_probs 1062 10 5)[k]?.getD 0 = pi k := fun k hk => by
    rw [overlapping_probs_get hk, heta]
    simp only [Pr_eq h0]
    rfl
  have hlen : (overlapping_probs 1062 10 5).length = 5 + 1 := by
    unfold overlapping_probs
    simp
  have hno : ¬ bits.length < 1062 * 968 := by omega
  unfold overlapping_template_matching_test
  simp only
  rw [if_neg hno]
  obtain ⟨w, hw, h1, h2⟩ := overlapping_counts_run (N := 968) (M := 1062) (K := 5) (B := List.replicate 10 1) (bits := bits)
  rw [hw, C_pure_bind, overlapping_chisq_run (by decide) h1 hlen fun k hk => by rw [hpi k hk]; exact (C97_probs h0 k).ne', C_pure_bind]
  have e : ∑ k ∈ Finset.range (5 + 1), (((w[k]?.getD 0 : Nat) : ℝ) - (968 : Nat) * (overlapping_probs 1062 10 5)[k]?.getD 0) ^ 2 /
      ((968 : Nat) * (overlapping_probs 1062 10 5)[k]?.getD 0) = chisq := by
    refine Finset.sum_congr rfl fun k hk => ?_
    rw [Finset.mem_range] at hk
    rw [hpi k (by omega), h2 k (by omega)]
    rfl
  rw [e]
  cases gammaincc (5 / 2) (chisq / 2) <;> rfl

/-- C97: fewer bits fail the test. -/
theorem C97_overlapping_short {bits : List Nat} (hn : bits.length < 1028016) :
    overlapping_template_matching_test bits = .ok ⟨False, 0⟩ := by
  unfold overlapping_template_matching_test
  simp only
  rw [if_pos hn]
  rfl

/-- The hypotheses of the theorems above can be met. -/
example : Unbordered [0, 0, 1, 0, 1] ∧ OccursAt [1, 0, 0, 1, 0, 1] [0, 0, 1, 0, 1] (6 - 5) ∧
    scan 6 [0, 0, 1, 0, 1] [1, 0, 0, 1, 0, 1] 7 0 0 = .ok 0 ∧ occurrences [1, 0, 0, 1, 0, 1] [0, 0, 1, 0, 1] 2 = 1 := by
  refine ⟨by unfold Unbordered; decide, by decide, by rfl, by decide⟩

/-- The statistic for 16 bits and the template 01. -/
example : matching [0, 1] [0, 1, 0, 1, 1, 1, 0, 0, 0, 0, 1, 0, 0, 1, 1, 1] ≠ 0 := by
  have h : matching [0, 1] [0, 1, 0, 1, 1, 1, 0, 0, 0, 0, 1, 0, 0, 1, 1, 1] = 4 := by
    unfold matching
    decide +kernel
  rw [h]
  decide

end WB.sp
