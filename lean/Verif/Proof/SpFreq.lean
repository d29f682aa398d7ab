import Verif.Model.SpFreq
import Verif.SpecSp
import Verif.Proof.SpBase
import Verif.Proof.SpGamma

/-!
# Frequencies and runs (helper lemmas)
-/
namespace WB.sp

theorem slice_part {bits : List Nat} (M i : Nat) : slice bits (i * M) ((i + 1) * M) = part bits M i := by
  rw [slice, part, List.drop_take, Nat.succ_mul, Nat.add_sub_cancel_left]

theorem count_run' (l : List Nat) : ∀ z o, l.foldl (fun (zeroes, ones) bit => if bit = 1 then (zeroes, ones + 1) else (zeroes + 1, ones))
    (z, o) = (z + (l.length - l.count 1), o + l.count 1) := by
  induction l with
  | nil => simp
  | cons b l ih =>
    intro z o
    have hc := List.count_le_length (a := 1) (l := l)
    rw [List.foldl_cons]
    by_cases h : b = 1
    · subst h
      simp only [if_true]
      rw [ih, List.count_cons_self, List.length_cons]
      congr 1 <;> omega
    · simp only [if_neg h]
      rw [ih, List.count_cons_of_ne h, List.length_cons]
      congr 1; omega

theorem count_ones_zeroes_eq (l : List Nat) : count_ones_zeroes l = (l.length - l.count 1, l.count 1) := by
  rw [count_ones_zeroes, count_run']
  simp

theorem count_zero {l : List Nat} (h : Bits l) : l.length - l.count 1 = l.count 0 := by
  induction l with
  | nil => rfl
  | cons b l ih =>
    have h1 := h b (List.mem_cons_self ..)
    have h2 := ih fun x hx => h x (List.mem_cons_of_mem _ hx)
    have hc := List.count_le_length (a := 1) (l := l)
    obtain rfl | rfl : b = 0 ∨ b = 1 := by omega
    · rw [List.count_cons_self, List.count_cons_of_ne (by decide), List.length_cons]
      omega
    · rw [List.count_cons_self, List.count_cons_of_ne (by decide), List.length_cons]
      omega

theorem block_chisq_run {bits : List Nat} {N M : Nat} (hM : M ≠ 0) :
    block_chisq N M bits = .ok (∑ i ∈ Finset.range N, 4 * M * (((part bits M i).count 1 : ℚ) / M - 1 / 2) ^ 2) := by
  have hM' : (M : ℚ) ≠ 0 := by exact_mod_cast hM
  unfold block_chisq
  rw [build_run N (fun i => ((part bits M i).count 1 : ℚ) / M), C_pure_bind, C_pure_eq]
  · refine congrArg Except.ok ?_
    rw [← zero_add (∑ i ∈ Finset.range N, _)]
    generalize (0 : ℚ) = c
    induction N with
    | zero => simp
    | succ N ih =>
      rw [List.range_succ, List.map_append, List.foldl_append, ih, Finset.sum_range_succ, ← add_assoc]
      rfl
  · rintro i l hi -
    simp only [count_ones_zeroes_eq, fractionQ, qdiv, if_neg hM', C_pure_bind, slice_part]
    rfl

theorem runs_run {bits : List Nat} (h : bits ≠ []) : count_runs bits = .ok (runs bits) := by
  have hl := List.length_pos_iff.2 h
  unfold count_runs
  rw [← Ok.eq]
  refine Ok.forUp (P := fun i v => v = ((Finset.range (i + 1)).filter fun i => i = 0 ∨ bits[i]? ≠ bits[i - 1]?).card)
    (Nat.zero_le _) (by rw [Finset.range_one, Finset.filter_singleton, if_pos (Or.inl rfl), Finset.card_singleton]) ?_ ?_
  · rintro i v - hi rfl
    have h1 : i < bits.length := by omega
    have h2 : i + 1 < bits.length := by omega
    rw [ix_ok h1, ix_ok h2]
    simp only [C_pure_bind]
    rw [Finset.range_add_one (n := i + 1), Finset.filter_insert]
    have e : (i + 1 = 0 ∨ bits[i + 1]? ≠ bits[i + 1 - 1]?) ↔ bits[i] ≠ bits[i + 1] := by
      rw [Nat.add_sub_cancel, List.getElem?_eq_getElem h1, List.getElem?_eq_getElem h2]
      simp [eq_comm]
    by_cases hb : bits[i] = bits[i + 1]
    · rw [if_neg (fun h => h hb), if_neg (fun h => e.1 h hb)]
      exact (Ok.ok_iff _ _).2 rfl
    · rw [if_pos hb, if_pos (e.2 hb), Finset.card_insert_of_notMem (by simp)]
      exact (Ok.ok_iff _ _).2 rfl
  · rintro v rfl
    rw [runs, Nat.sub_add_cancel hl]

/-- longest run of ones among the first `j` bits -/
def LongestUpTo (b : List Nat) (j k : Nat) : Prop := IsGreatest {k | ∃ s, s + k ≤ j ∧ ∀ t, t < k → b[s + t]? = some 1} k

theorem longest_run_run (b : List Nat) : Ok (longest_run b.length b) fun r => LongestRun b r.2 := by
  unfold longest_run
  refine (Ok.forUp (P := fun j (r : Nat × Nat) => r.1 ≤ j ∧ (∀ t, j - r.1 ≤ t → t < j → b[t]? = some 1) ∧
    (r.1 < j → b[j - r.1 - 1]? ≠ some 1) ∧ LongestUpTo b j r.2) (Nat.zero_le _) ?_ ?_ fun r h => h.2.2.2)
  · refine ⟨le_refl _, fun t _ h => absurd h (Nat.not_lt_zero _), fun h => absurd h (lt_irrefl _), ⟨0, by simp⟩, ?_⟩
    rintro k ⟨s, h, -⟩
    omega
  · rintro j ⟨run, longest⟩ - hj ⟨h1, h2, h3, ⟨s0, h4, h5⟩, h6⟩
    simp only at h1 h2 h3 h4 h5 h6
    simp only
    rw [ix_ok hj, C_pure_bind]
    by_cases hb : b[j] = 1
    · rw [if_pos hb]
      have hb' : b[j]? = some 1 := by rw [List.getElem?_eq_getElem hj, hb]
      have hrun : ∀ t, j + 1 - (run + 1) ≤ t → t < j + 1 → b[t]? = some 1 := fun t ht ht' => by
        by_cases e : t = j
        · rw [e, hb']
        · exact h2 t (by omega) (by omega)
      have hmax : ∀ k s, s + k ≤ j + 1 → (∀ t, t < k → b[s + t]? = some 1) → k ≤ max longest (run + 1) := fun k s g1 g2 => by
        by_cases e : s + k ≤ j
        · exact le_trans (h6 ⟨s, e, g2⟩) (le_max_left _ _)
        · by_contra g
          have g3 : run + 1 < k := by omega
          refine h3 (by omega) ?_
          have := g2 (j - run - 1 - s) (by omega)
          rwa [show s + (j - run - 1 - s) = j - run - 1 by omega] at this
      have hin : ∃ s, s + (run + 1) ≤ j + 1 ∧ ∀ t, t < run + 1 → b[s + t]? = some 1 :=
        ⟨j - run, by omega, fun t ht => hrun _ (by omega) (by omega)⟩
      by_cases hg : run + 1 > longest
      · rw [if_pos hg]
        refine (Ok.ok_iff _ _).2 ⟨by simp only; omega, hrun, fun h => ?_, hin, ?_⟩
        · simp only at h
          have := h3 (by omega)
          simp only
          rwa [show j + 1 - (run + 1) - 1 = j - run - 1 by omega]
        · rintro k ⟨s, g1, g2⟩
          have := hmax k s g1 g2
          simp only
          omega
      · rw [if_neg hg]
        refine (Ok.ok_iff _ _).2 ⟨by simp only; omega, hrun, fun h => ?_, ⟨s0, by omega, h5⟩, ?_⟩
        · simp only at h
          have := h3 (by omega)
          simp only
          rwa [show j + 1 - (run + 1) - 1 = j - run - 1 by omega]
        · rintro k ⟨s, g1, g2⟩
          have := hmax k s g1 g2
          simp only
          omega
    · rw [if_neg hb]
      have hb' : b[j]? ≠ some 1 := by
        rw [List.getElem?_eq_getElem hj]
        simpa using hb
      refine (Ok.ok_iff _ _).2 ⟨Nat.zero_le _, fun t g1 g2 => absurd g2 (by simp only at g1; omega), fun _ => hb', ⟨s0, by omega, h5⟩, ?_⟩
      rintro k ⟨s, g1, g2⟩
      simp only
      by_cases e : s + k ≤ j
      · exact h6 ⟨s, e, g2⟩
      · by_contra g
        have := g2 (j - s) (by omega)
        rw [show s + (j - s) = j by omega] at this
        exact hb' this

theorem part_length {bits : List Nat} {M i : Nat} (h : (i + 1) * M ≤ bits.length) : (part bits M i).length = M := by
  rw [Nat.succ_mul] at h
  simp [part]
  omega

theorem run_counts_run {bits : List Nat} {N M : Nat} (h : N * M ≤ bits.length) (f : Nat → Nat)
    (hf : ∀ i, i < N → LongestRun (part bits M i) (f i)) (hc : ∀ l, runClass M l < 7) :
    Ok (run_counts N M bits) fun v => v.length = 7 ∧ ∀ k, k < 7 → v[k]?.getD 0 =
      ((Finset.range N).filter fun i => runClass M (f i) = k).card := by
  unfold run_counts
  refine Ok.forUp (P := fun j v => v.length = 7 ∧ ∀ k, k < 7 → v[k]?.getD 0 =
      ((Finset.range j).filter fun i => runClass M (f i) = k).card) (Nat.zero_le _) ?_ ?_ fun _ h => h
  · refine ⟨rfl, ?_⟩
    intro k hk
    rw [Finset.range_zero, Finset.filter_empty, Finset.card_empty]
    revert k
    decide
  · rintro i v - hi ⟨h1, h2⟩
    have hlen : (part bits M i).length = M := part_length (le_trans (Nat.mul_le_mul_right _ hi) h)
    have hl := longest_run_run (part bits M i)
    rw [hlen] at hl
    simp only [slice_part]
    rw [Ok.bind_iff]
    refine hl.mono ?_
    rintro ⟨run, longest⟩ hr
    have : longest = f i := hr.unique (hf i hi)
    subst this
    have hcl := hc (f i)
    simp only
    rw [ix_getD 0 (by omega), C_pure_bind, put_ok _ (by omega), Ok.ok_iff]
    refine ⟨by simp [h1], fun k hk => ?_⟩
    rw [Finset.range_add_one, Finset.filter_insert, List.getElem?_set]
    by_cases e : runClass M (f i) = k
    · subst e
      rw [if_pos rfl, if_pos (by omega), if_pos rfl, Finset.card_insert_of_notMem (by simp), ← h2 _ hk]
      rfl
    · rw [if_neg e, if_neg e, h2 k hk]

theorem run_chisq_run {K N M : Nat} (hN : N ≠ 0) {v : List Nat} (hv : K < v.length) (pi : List ℚ) (hp : ∀ i, probs M i = ix pi i)
    (hl : pi.length = K + 1) (h0 : ∀ i, i < K + 1 → pi[i]?.getD 0 ≠ 0) (u : Nat → ℚ) (hu : ∀ k, k ≤ K → ((v[k]?.getD 0 : Nat) : ℚ) = u k) :
    run_chisq K N M v = .ok (chiSquare (K + 1) N u fun k => pi[k]?.getD 0) := by
  have hN' : (N : ℚ) ≠ 0 := by exact_mod_cast hN
  unfold run_chisq chiSquare
  rw [← Ok.eq]
  refine Ok.forUp (P := fun i x => x = ∑ k ∈ Finset.range i, (u k - N * pi[k]?.getD 0) ^ 2 / (N * pi[k]?.getD 0))
    (Nat.zero_le _) (by simp) ?_ fun _ h => h
  rintro i x - hi rfl
  rw [hp, ix_getD 0 (show i < v.length by omega), ix_getD (l := pi) 0 (by omega)]
  simp only [C_pure_bind]
  rw [hu i (by omega), qdiv, if_neg (mul_ne_zero hN' (h0 i hi)), C_pure_bind, C_pure_eq, Ok.ok_iff, Finset.sum_range_succ]

end WB.sp
