import Verif.Model.SpMaurer
import Verif.SpecSpR
import Verif.Proof.SpFreq

/-!
# Maurer's test (helper lemmas)
-/
namespace WB.sp

theorem pattern_snoc (l : List Nat) (b : Nat) : pattern2int (l ++ [b]) = 2 * pattern2int l + b := by
  unfold pattern2int
  rw [List.foldl_append]
  simp only [List.foldl_cons, List.foldl_nil, Nat.shiftLeft_eq]
  omega

theorem pattern_lt {l : List Nat} (h : Bits l) : pattern2int l < 2 ^ l.length := by
  induction l using List.reverseRecOn with
  | nil => decide
  | append_singleton l b ih =>
    have h1 := h b (by simp)
    have h2 := ih fun x hx => h x (by simp [hx])
    rw [pattern_snoc, List.length_append, List.length_singleton, pow_succ]
    omega

theorem pattern_inj {l : List Nat} : ∀ {m : List Nat}, Bits l → Bits m → l.length = m.length → pattern2int l = pattern2int m → l = m := by
  induction l using List.reverseRecOn with
  | nil =>
    intro m _ _ h _
    exact (List.length_eq_zero_iff.1 h.symm).symm
  | append_singleton l b ih =>
    intro m hl hm h e
    rcases List.eq_nil_or_concat m with rfl | ⟨m, c, rfl⟩
    · simp at h
    · rw [List.concat_eq_append] at *
      have h1 := hl b (by simp)
      have h2 := hm c (by simp)
      rw [pattern_snoc, pattern_snoc] at e
      rw [ih (m := m) (fun x hx => hl x (by simp [hx])) (fun x hx => hm x (by simp [hx])) (by simpa using h) (by omega), show b = c by omega]

theorem part_bits {bits : List Nat} (hb : Bits bits) (L i : Nat) : Bits (part bits L i) := fun x hx =>
  hb x (List.mem_of_mem_drop (List.mem_of_mem_take hx))

theorem code_lt {bits : List Nat} (hb : Bits bits) (L i : Nat) : pattern2int (part bits L i) < 2 ^ L := by
  refine lt_of_lt_of_le (pattern_lt (part_bits hb L i)) (Nat.pow_le_pow_right (by decide) ?_)
  rw [part, List.length_take]
  omega

/-- the number of the last of the first `i` blocks with code `p` (counting from 1), or 0 -/
def lastOf (bits : List Nat) (L p : Nat) : Nat → Nat
  | 0 => 0
  | i + 1 => if pattern2int (part bits L i) = p then i + 1 else lastOf bits L p i

theorem lastOf_spec (bits : List Nat) (L p i : Nat) : lastOf bits L p i ≤ i ∧
    (0 < lastOf bits L p i → pattern2int (part bits L (lastOf bits L p i - 1)) = p) ∧
    ∀ s, lastOf bits L p i ≤ s → s < i → pattern2int (part bits L s) ≠ p := by
  induction i with
  | zero => exact ⟨le_refl _, fun h => absurd h (lt_irrefl _), fun s _ h => absurd h (Nat.not_lt_zero _)⟩
  | succ i ih =>
    rw [lastOf]
    by_cases h : pattern2int (part bits L i) = p
    · rw [if_pos h]
      exact ⟨le_refl _, fun _ => h, fun s h1 h2 => absurd h1 (by omega)⟩
    · rw [if_neg h]
      refine ⟨by omega, ih.2.1, fun s h1 h2 => ?_⟩
      by_cases e : s = i
      · rw [e]; exact h
      · exact ih.2.2 s h1 (by omega)

theorem gap_eq {bits : List Nat} (hb : Bits bits) {L i : Nat} (hi : (i + 1) * L ≤ bits.length) :
    gap bits L i = i + 1 - lastOf bits L (pattern2int (part bits L i)) i := by
  obtain ⟨h1, h2, h3⟩ := lastOf_spec bits L (pattern2int (part bits L i)) i
  have hl : ∀ j, j ≤ i → (part bits L j).length = L := fun j hj => part_length (le_trans (Nat.mul_le_mul_right _ (by omega)) hi)
  have hle : IsLeast {d | 0 < d ∧ (d ≤ i → part bits L (i - d) = part bits L i)} (i + 1 - lastOf bits L (pattern2int (part bits L i)) i) := by
    refine ⟨⟨by omega, fun h => ?_⟩, ?_⟩
    · have := h2 (by omega)
      rw [show i - (i + 1 - lastOf bits L (pattern2int (part bits L i)) i) = lastOf bits L (pattern2int (part bits L i)) i - 1 by omega]
      exact pattern_inj (part_bits hb _ _) (part_bits hb _ _) (by rw [hl _ (by omega), hl _ (le_refl _)]) this
    · rintro d ⟨d0, hd⟩
      by_contra hlt
      refine h3 (i - d) (by omega) (by omega) ?_
      rw [hd (by omega)]
  exact hle.csInf_eq

/-- what the table contains after `i` blocks -/
def Last (bits : List Nat) (L i : Nat) (T : List Nat) : Prop := T.length = 2 ^ L ∧ ∀ p, p < 2 ^ L → T[p]?.getD 0 = lastOf bits L p i

theorem last_put {bits : List Nat} (hb : Bits bits) {L i : Nat} {T : List Nat} (h : Last bits L i T) :
    Ok (put T (pattern2int (part bits L i)) (i + 1)) fun T' => Last bits L (i + 1) T' := by
  have hc := code_lt hb L i
  rw [put_ok _ (by rw [h.1]; exact hc), Ok.ok_iff]
  refine ⟨by rw [List.length_set, h.1], fun p hp => ?_⟩
  rw [List.getElem?_set, lastOf]
  by_cases e : pattern2int (part bits L i) = p
  · rw [if_pos e, if_pos (by rw [h.1]; exact hc), if_pos e]
    rfl
  · rw [if_neg e, if_neg e, h.2 p hp]

theorem maurer_table_run {bits : List Nat} (hb : Bits bits) (L Q : Nat) : Ok (maurer_table L Q bits) fun T => Last bits L Q T := by
  unfold maurer_table
  refine Ok.forUp (P := fun i T => Last bits L i T) (Nat.zero_le _) ⟨by simp, fun p hp => ?_⟩ ?_ fun _ h => h
  · rw [List.getElem?_replicate, if_pos hp]
    rfl
  · rintro i T - hi h
    simp only [slice_part]
    exact last_put hb h

theorem maurer_sum_run {bits : List Nat} (hb : Bits bits) {L Q nblocks : Nat} (hQ : Q ≤ nblocks) (hn : nblocks * L ≤ bits.length)
    {T : List Nat} (hT : Last bits L Q T) : Ok (maurer_sum L Q nblocks bits T) fun r =>
      r.2 = ∑ i ∈ Finset.Ico Q nblocks, Real.logb 2 (gap bits L i) := by
  unfold maurer_sum
  refine Ok.forUp (P := fun i (r : List Nat × ℝ) => Last bits L i r.1 ∧ r.2 = ∑ i ∈ Finset.Ico Q i, Real.logb 2 (gap bits L i)) hQ
    ⟨hT, by simp⟩ ?_ fun _ h => h.2
  rintro i ⟨T, sum⟩ h1 h2 ⟨h3, h4⟩
  have hc := code_lt hb L i
  simp only at h3 h4
  simp only [slice_part]
  rw [ix_getD 0 (by rw [h3.1]; exact hc), C_pure_bind, Ok.bind_iff]
  refine (last_put hb h3).mono ?_
  intro T' h5
  rw [C_pure_eq, Ok.ok_iff]
  refine ⟨h5, ?_⟩
  simp only
  rw [Finset.sum_Ico_succ_top h1, ← h4, gap_eq hb (le_trans (Nat.mul_le_mul_right _ h2) hn), h3.2 _ hc]
  have h6 := (lastOf_spec bits L (pattern2int (part bits L i)) i).1
  push_cast [Nat.cast_sub (by omega : lastOf bits L (pattern2int (part bits L i)) i ≤ i + 1)]
  rfl

end WB.sp
