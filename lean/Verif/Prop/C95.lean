import Verif.Proof.SpFreq

/-!
# C95 — the tests for frequencies and runs (`/repo/test/randomness`)
-/
namespace WB.sp

/-- C95: the P value of `monobit_test` is computed from the difference of the numbers of ones and zeros. -/
theorem C95_monobit {bits : List Nat} (hb : Bits bits) (h : bits ≠ []) :
    monobit_test bits = .ok (result (erfc (|(bits.count 1 : ℝ) - bits.count 0| / Real.sqrt (2 * bits.length)))) := by
  have hl : (0 : ℝ) < bits.length := by exact_mod_cast List.length_pos_iff.2 h
  have h2 : Real.sqrt (bits.length : ℝ) * Real.sqrt 2 = Real.sqrt (2 * bits.length) := by
    rw [mul_comm, Real.sqrt_mul (by norm_num)]
  have h3 : Real.sqrt (2 * (bits.length : ℝ)) ≠ 0 := (Real.sqrt_pos.2 (by positivity)).ne'
  unfold monobit_test
  simp only [count_ones_zeroes_eq, count_zero hb]
  rw [h2, rdiv_ok h3, C_pure_bind, C_pure_eq]
  push_cast
  rfl

/-- C95: a run without bits ends with a division by zero. -/
theorem C95_monobit_empty : monobit_test [] = .error .divZero := by
  simp [monobit_test, count_ones_zeroes, rdiv]

/-- C95: `frequency_within_block_test` for 100 bits or more: up to 99 blocks of 20 bits, or 99 blocks of equal length; the statistic is
the sum over the blocks of `4 * M * (proportion of ones - 1/2)^2`. -/
theorem C95_block {bits : List Nat} (h : 100 ≤ bits.length) :
    let N := if bits.length < 2000 then bits.length / 20 else 99
    let M := if bits.length < 2000 then 20 else bits.length / 99
    let chisq : ℚ := ∑ i ∈ Finset.range N, 4 * M * (((part bits M i).count 1 : ℚ) / M - 1 / 2) ^ 2
    frequency_within_block_test bits = (gammaincc ((N : ℝ) / 2) ((chisq : ℝ) / 2)).map result := by
  intro N M chisq
  have hM : M ≠ 0 := by
    simp only [M]
    split <;> omega
  have hNM : (if bits.length / 20 > 99 then (99, bits.length / 99) else (bits.length / 20, 20)) = (N, M) := by
    simp only [N, M]
    by_cases g : bits.length < 2000
    · rw [if_neg (by omega), if_pos g, if_pos g]
    · rw [if_pos (by omega), if_neg g, if_neg g]
  unfold frequency_within_block_test
  simp only [hNM]
  rw [if_neg (by omega), block_chisq_run hM, C_pure_bind]
  simp only [chisq]
  cases gammaincc ((N : ℝ) / 2) (((∑ i ∈ Finset.range N, 4 * M * (((part bits M i).count 1 : ℚ) / M - 1 / 2) ^ 2 : ℚ) : ℝ) / 2) <;>
    rfl

/-- C95: fewer bits fail the test. -/
theorem C95_block_short {bits : List Nat} (h : bits.length < 100) : frequency_within_block_test bits = .ok ⟨False, 1⟩ := by
  unfold frequency_within_block_test
  simp only [if_pos h]
  rfl

/-- C95: bits of which exactly half are ones in every block, which are as good as possible for this test, do not pass it: it raises an
exception or reports a P value of 0 instead of 1. -/
theorem C95_balanced_violated {bits : List Nat} (h : 100 ≤ bits.length)
    (hb : let N := if bits.length < 2000 then bits.length / 20 else 99
      let M := if bits.length < 2000 then 20 else bits.length / 99
      ∀ i, i < N → 2 * (part bits M i).count 1 = M) (r : Result) (hr : frequency_within_block_test bits = .ok r) :
    ¬ r.success ∧ r.p = 0 := by
  have h1 := C95_block h
  simp only at hb h1
  have hN0 : (if bits.length < 2000 then bits.length / 20 else 99) ≠ 0 := by split <;> omega
  generalize (if bits.length < 2000 then bits.length / 20 else 99) = N at hb h1 hN0
  have hM : (if bits.length < 2000 then 20 else bits.length / 99) ≠ 0 := by split <;> omega
  generalize (if bits.length < 2000 then 20 else bits.length / 99) = M at hb h1 hM
  have hM' : (M : ℚ) ≠ 0 := by exact_mod_cast hM
  rw [Finset.sum_eq_zero, Rat.cast_zero, zero_div] at h1
  · rw [h1] at hr
    cases hg : gammaincc ((N : ℝ) / 2) 0 with
    | error e => rw [hg] at hr; exact absurd hr (by simp [Except.map])
    | ok p =>
      rw [hg] at hr
      have hN : (N : ℝ) / 2 ≠ 0 := by
        have : (N : ℝ) ≠ 0 := by exact_mod_cast hN0
        positivity
      have := gammaincc_zero hN p hg
      subst this
      have := ((Except.ok.injEq _ _).mp hr).symm
      subst this
      refine ⟨?_, rfl⟩
      simp only [result]
      norm_num
  · intro i hi
    have := hb i (Finset.mem_range.1 hi)
    have : ((part bits M i).count 1 : ℚ) = M / 2 := by
      have h2 : (2 : ℚ) * (part bits M i).count 1 = M := by exact_mod_cast this
      linarith
    rw [this]
    field_simp
    ring

/-- C95: `runs_test` fails if the proportion of ones differs from 1/2 by more than `2 / sqrt n`; otherwise the P value is computed from
the number of runs, … -/
theorem C95_runs {bits : List Nat} (h0 : 0 < bits.count 1) (h1 : bits.count 1 < bits.length) :
    let n : ℝ := bits.length
    let π : ℝ := bits.count 1 / n
    (|π - 1 / 2| > 2 / Real.sqrt n → runs_test bits = .ok ⟨False, 0⟩) ∧
    (¬ |π - 1 / 2| > 2 / Real.sqrt n → runs_test bits =
      .ok (result (erfc (|runs bits - 2 * n * π * (1 - π)| / (2 * Real.sqrt (2 * n) * π * (1 - π)))))) := by
  intro n π
  have hne : bits ≠ [] := by
    rintro rfl
    simp at h1
  have hn : 0 < n := by
    simp only [n]
    exact_mod_cast List.length_pos_iff.2 hne
  have hs : Real.sqrt n ≠ 0 := (Real.sqrt_pos.2 hn).ne'
  have hp : 0 < π := div_pos (by exact_mod_cast h0) hn
  have hp1 : π < 1 := by
    rw [div_lt_one hn]
    simp only [n]
    exact_mod_cast h1
  have hd : 2 * Real.sqrt (2 * n) * π * (1 - π) ≠ 0 := by
    have h1 : 0 < Real.sqrt (2 * n) := Real.sqrt_pos.2 (by positivity)
    have h2 : 0 < 1 - π := by linarith
    positivity
  have he : (0.5 : ℝ) = 1 / 2 := by norm_num
  unfold runs_test
  simp only [count_ones_zeroes_eq]
  rw [rdiv_ok hn.ne', C_pure_bind, rdiv_ok hs, C_pure_bind, he]
  constructor
  · intro h
    rw [if_pos h]
    rfl
  · intro h
    rw [if_neg h, runs_run hne, C_pure_bind, rdiv_ok hd, C_pure_bind]
    rfl

/-- C95: … and up to 16 bits that are all equal end with a division by zero. -/
theorem C95_runs_equal {bits : List Nat} (h : bits.count 1 = 0 ∨ bits.count 1 = bits.length) (hl : bits.length ≤ 16) :
    runs_test bits = .error .divZero := by
  unfold runs_test
  simp only [count_ones_zeroes_eq]
  by_cases hn : bits.length = 0
  · rw [rdiv, if_pos (by exact_mod_cast hn)]
    rfl
  have hn' : (0 : ℝ) < bits.length := by exact_mod_cast Nat.pos_of_ne_zero hn
  have hs : 0 < Real.sqrt (bits.length : ℝ) := Real.sqrt_pos.2 hn'
  have h4 : Real.sqrt (bits.length : ℝ) ≤ 4 := by
    rw [show (4 : ℝ) = Real.sqrt 16 by rw [show (16 : ℝ) = 4 ^ 2 by norm_num, Real.sqrt_sq (by norm_num)]]
    exact Real.sqrt_le_sqrt (by exact_mod_cast hl)
  have ht : 1 / 2 ≤ 2 / Real.sqrt (bits.length : ℝ) := by
    rw [div_le_div_iff₀ (by norm_num) hs]
    linarith
  have hne : bits ≠ [] := fun h => hn (by rw [h]; rfl)
  rw [rdiv_ok hn'.ne', C_pure_bind, rdiv_ok hs.ne', C_pure_bind]
  have hp : ((bits.count 1 : ℝ) / bits.length = 0 ∨ (bits.count 1 : ℝ) / bits.length = 1) := by
    rcases h with h | h
    · left
      rw [h]
      simp
    · right
      rw [h, div_self hn'.ne']
  rw [if_neg, runs_run hne, C_pure_bind, rdiv, if_pos]
  · rfl
  · rcases hp with h | h <;> rw [h] <;> simp
  · rw [not_lt]
    refine le_trans (le_of_eq ?_) ht
    rcases hp with h | h <;> rw [h] <;> norm_num [abs_of_pos, abs_of_neg]

open Classical in
/-- Chi-square statistic for the longest runs of ones in the first `N` blocks of `M` bits: class `k` are the blocks with a longest run of
`low + k` bits, but class 0 are also those with a shorter one and class `K` also those with a longer one. -/
noncomputable def longestChisq (bits : List Nat) (M N K low : Nat) (π : List ℚ) : ℚ :=
  chiSquare (K + 1) N (fun k => ((Finset.range N).filter fun i => ∃ L, LongestRun (part bits M i) L ∧ min K (L - low) = k).card)
    fun k => π[k]?.getD 0

open Classical in
theorem longest_run_test {bits : List Nat} {M N K low : Nat} {π : List ℚ} (h : N * M ≤ bits.length) (hN : N ≠ 0) (hK : K < 7)
    (hc : ∀ L, runClass M L = min K (L - low)) (hp : ∀ i, probs M i = ix π i) (hl : π.length = K + 1)
    (h0 : ∀ i, i < K + 1 → π[i]?.getD 0 ≠ 0) :
    (do let v ← run_counts N M bits
        let chi_sq ← run_chisq K N M v
        let p ← gammaincc ((K : ℝ) / 2) ((chi_sq : ℝ) / 2)
        pure (result p)) = (gammaincc ((K : ℝ) / 2) (longestChisq bits M N K low π / 2)).map result := by
  have hex : ∀ i, ∃ L, LongestRun (part bits M i) L := fun i => by
    obtain ⟨r, -, hr⟩ := longest_run_run (part bits M i)
    exact ⟨_, hr⟩
  choose f hf using hex
  obtain ⟨v, e, h1, h2⟩ := run_counts_run h f (fun i _ => hf i) (fun l => by rw [hc]; omega)
  have hu : ∀ k, k ≤ K → ((v[k]?.getD 0 : Nat) : ℚ) = (((Finset.range N).filter fun i =>
      ∃ L, LongestRun (part bits M i) L ∧ min K (L - low) = k).card : ℚ) := fun k hk => by
    rw [h2 k (by omega)]
    congr 2
    ext i
    simp only [Finset.mem_filter]
    refine and_congr_right fun hi => ⟨fun g => ⟨f i, hf i, by rw [← hc]; exact g⟩, ?_⟩
    rintro ⟨L, g1, g2⟩
    rw [(hf i).unique g1, hc]
    exact g2
  rw [e, C_pure_bind, run_chisq_run hN (by omega) π hp hl h0 _ hu, C_pure_bind]
  change _ = (gammaincc ((K : ℝ) / 2) (((chiSquare (K + 1) N _ _ : ℚ) : ℝ) / 2)).map result
  cases gammaincc ((K : ℝ) / 2) (((chiSquare (K + 1) N (fun k => (((Finset.range N).filter fun i =>
      ∃ L, LongestRun (part bits M i) L ∧ min K (L - low) = k).card : ℚ)) fun k => π[k]?.getD 0 : ℚ) : ℝ) / 2) <;> rfl

/-- C95: `longest_run_ones_in_a_block_test` looks at the first 128 bits, … -/
theorem C95_longest_8 {bits : List Nat} (h : 128 ≤ bits.length) (h' : bits.length < 6272) :
    longest_run_ones_in_a_block_test bits =
      (gammaincc (3 / 2) (longestChisq bits 8 16 3 1 [0.2148, 0.3672, 0.2305, 0.1875] / 2)).map result := by
  have := longest_run_test (bits := bits) (M := 8) (N := 16) (K := 3) (low := 1) (π := [0.2148, 0.3672, 0.2305, 0.1875]) h
    (by decide) (by decide) (fun L => by simp only [runClass]; split_ifs <;> omega) (fun i => rfl) rfl (by decide +kernel)
  rw [Nat.cast_ofNat] at this
  rw [← this]
  unfold longest_run_ones_in_a_block_test
  simp only [if_neg (not_lt.2 h), if_pos h', if_true]
  rfl

/-- C95: … the first 6272 bits … -/
theorem C95_longest_128 {bits : List Nat} (h : 6272 ≤ bits.length) (h' : bits.length < 750000) :
    longest_run_ones_in_a_block_test bits =
      (gammaincc (5 / 2) (longestChisq bits 128 49 5 4 [0.1174, 0.2430, 0.2493, 0.1752, 0.1027, 0.1124] / 2)).map result := by
  have := longest_run_test (bits := bits) (M := 128) (N := 49) (K := 5) (low := 4)
    (π := [0.1174, 0.2430, 0.2493, 0.1752, 0.1027, 0.1124]) h
    (by decide) (by decide) (fun L => by simp only [runClass]; split_ifs <;> omega) (fun i => rfl) rfl (by decide +kernel)
  rw [Nat.cast_ofNat] at this
  rw [← this]
  unfold longest_run_ones_in_a_block_test
  simp only [if_neg (show ¬ bits.length < 128 by omega), if_neg (not_lt.2 h), if_pos h']
  rfl

/-- C95: … or the first 750000 bits. -/
theorem C95_longest_10000 {bits : List Nat} (h : 750000 ≤ bits.length) :
    longest_run_ones_in_a_block_test bits =
      (gammaincc 3 (longestChisq bits 10000 75 6 10 [0.0882, 0.2092, 0.2483, 0.1933, 0.1208, 0.0675, 0.0727] / 2)).map result := by
  have := longest_run_test (bits := bits) (M := 10000) (N := 75) (K := 6) (low := 10)
    (π := [0.0882, 0.2092, 0.2483, 0.1933, 0.1208, 0.0675, 0.0727]) h
    (by decide) (by decide) (fun L => by simp only [runClass]; split_ifs <;> omega) (fun i => rfl) rfl (by decide +kernel)
  rw [Nat.cast_ofNat, show (6 : ℝ) / 2 = 3 by norm_num] at this
  rw [← this]
  unfold longest_run_ones_in_a_block_test
  simp only [if_neg (show ¬ bits.length < 128 by omega), if_neg (show ¬ bits.length < 6272 by omega), if_neg (not_lt.2 h)]
  norm_num
  done

/-- C95: fewer than 128 bits fail the test. -/
theorem C95_longest_short {bits : List Nat} (h : bits.length < 128) : longest_run_ones_in_a_block_test bits = .ok ⟨False, 1⟩ := by
  unfold longest_run_ones_in_a_block_test
  simp only [if_pos h]
  rfl

/-- The hypotheses of the theorems above can be met. -/
example : Bits [1, 0, 1, 1, 0, 1, 0, 1, 0, 1] ∧ ([1, 0, 1, 1, 0, 1, 0, 1, 0, 1] : List Nat) ≠ [] := by unfold Bits; decide

/-- The example in the NIST publication: six ones among ten bits, seven runs. -/
example : ([1, 0, 0, 1, 1, 0, 1, 0, 1, 1] : List Nat).count 1 = 6 ∧ runs [1, 0, 0, 1, 1, 0, 1, 0, 1, 1] = 7 := by decide +kernel

example : ([1, 1, 1, 1] : List Nat).count 1 = [1, 1, 1, 1].length ∧ [1, 1, 1, 1].length ≤ 16 := by decide

example : let bits := (List.replicate 50 [0, 1]).flatten
    100 ≤ bits.length ∧ ∀ i, i < bits.length / 20 → 2 * (part bits 20 i).count 1 = 20 := by decide +kernel

example : LongestRun [1, 1, 0, 0, 1, 1, 0, 0] 2 := by
  obtain ⟨r, h1, h2⟩ := longest_run_run [1, 1, 0, 0, 1, 1, 0, 0]
  have : longest_run 8 [1, 1, 0, 0, 1, 1, 0, 0] = .ok (0, 2) := by decide +kernel
  rw [show [1, 1, 0, 0, 1, 1, 0, 0].length = 8 from rfl, this] at h1
  rw [← (Except.ok.injEq _ _).mp h1] at h2
  exact h2

end WB.sp
