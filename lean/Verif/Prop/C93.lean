import Verif.Proof.SpLinear

/-!
# C93 — the linear complexity test (`/repo/test/randomness`)
-/
namespace WB.sp

/-- C93: for every sequence of bits that is not empty, `berelekamp_massey` returns the linear complexity, the length of a shortest
linear feedback shift register that produces the sequence. -/
theorem C93_linear_complexity {bits : List Nat} (hb : Bits bits) (h0 : bits ≠ []) :
    ∃ L poly, berelekamp_massey bits = .ok (L, poly) ∧ LinearComplexity bits L := by
  obtain ⟨⟨L, poly⟩, e, c, C, h1, h2, h3, h4, h5⟩ := berelekamp_massey_run hb h0
  refine ⟨L, poly, e, (register_iff _ _).2 ⟨C, h3⟩, fun K hK => ?_⟩
  obtain ⟨D, hD⟩ := (register_iff _ _).1 hK
  exact h5 D K hD

/-- C93: the list returned with it has `L` elements: 1 and the first `L - 1` feedback coefficients of such a register. -/
theorem C93_poly {bits : List Nat} (hb : Bits bits) (h0 : bits ≠ []) :
    ∃ L poly taps, berelekamp_massey bits = .ok (L, poly) ∧ poly.length = L ∧ Bits poly ∧ Register bits L taps ∧
      (0 < L → bit poly 0 = 1) ∧ ∀ i, i + 1 < L → bit poly (i + 1) = taps i := by
  obtain ⟨⟨L, poly⟩, e, c, C, h1, h2, h3, h4, h5⟩ := berelekamp_massey_run hb h0
  simp only at h2 h3 h4
  subst h2
  have hp : ∀ i, i < L → bit (slice c 0 L) i = PowerSeries.coeff i C := fun i hi => by
    rw [← h1.2.2 i (by omega)]
    simp only [bit]
    rw [slice_get (by omega), Nat.zero_add]
  refine ⟨L, _, fun i => PowerSeries.coeff (i + 1) C, e, ?_, fun x hx => h1.2.1 x (mem_of_mem_slice hx), ?_,
    fun h => (hp 0 h).trans h3.zero, fun i hi => hp _ hi⟩
  · rw [slice_length (by rw [h1.1]; exact h4), Nat.sub_zero]
  · exact register_of_gen h3

/-- C93: for the empty sequence it ends with an `IndexError`. -/
theorem C93_empty : berelekamp_massey [] = .error .oob := rfl

/-- C93, what does not hold: the list that is returned is not enough to continue the sequence, because the last coefficient is cut
off.  The sequence 1, 1, 1 needs a register with one cell that feeds itself; the sequence 1, 0, 0 one that does not; the result is
the same. -/
theorem C93_poly_violated : berelekamp_massey [1, 1, 1] = .ok (1, [1]) ∧ berelekamp_massey [1, 0, 0] = .ok (1, [1]) := by
  decide +kernel

theorem linear_chisq_run {v : List Nat} (hv : v.length = 7) {N : Nat} (hN : N ≠ 0) (w : Nat → ℚ)
    (hw : ∀ k, k < 7 → ((v[k]?.getD 0 : Nat) : ℚ) = w k) :
    linear_chisq v N = .ok (chiSquare 7 N w fun k =>
      ([0.010417, 0.03125, 0.125, 0.5, 0.25, 0.0625, 0.020833] : List ℚ)[k]?.getD 0) := by
  have hN' : (N : ℚ) ≠ 0 := by exact_mod_cast hN
  unfold linear_chisq chiSquare
  rw [← Ok.eq]
  refine Ok.forUp (P := fun i x => x = ∑ k ∈ Finset.range i, (w k - N *
    ([0.010417, 0.03125, 0.125, 0.5, 0.25, 0.0625, 0.020833] : List ℚ)[k]?.getD 0) ^ 2 / (N *
    ([0.010417, 0.03125, 0.125, 0.5, 0.25, 0.0625, 0.020833] : List ℚ)[k]?.getD 0)) (Nat.zero_le _) (by simp) ?_ fun _ h => h
  rintro i x - hi rfl
  rw [ix_getD 0 (by omega), ix_getD (l := [0.010417, 0.03125, 0.125, 0.5, 0.25, 0.0625, 0.020833]) (0 : ℚ) hi]
  simp only [C_pure_bind]
  rw [hw i hi, qdiv, if_neg, C_pure_bind, C_pure_eq, Ok.ok_iff, Finset.sum_range_succ]
  refine mul_ne_zero hN' ?_
  revert i
  decide +kernel

open Classical in
/-- C93: `linear_complexity_test` for a million bits or more splits them into blocks of 512 bits (the rest is ignored), and its P
value is computed from the number of blocks in each class of linear complexities: below 254, 254, …, 258, above 258. -/
theorem C93_test {bits : List Nat} (hb : Bits bits) (hn : 1000000 ≤ bits.length) :
    let N := bits.length / 512
    let v : Nat → ℚ := fun k => ((Finset.range N).filter fun i =>
      ∃ L, LinearComplexity (slice bits (i * 512) ((i + 1) * 512)) L ∧ min 6 (L - 253) = k).card
    let π : Nat → ℚ := fun k => ([0.010417, 0.03125, 0.125, 0.5, 0.25, 0.0625, 0.020833] : List ℚ)[k]?.getD 0
    linear_complexity_test bits none = (gammaincc 3 ((chiSquare 7 N v π : ℝ) / 2)).map result := by
  intro N v π
  have hl : ∀ i, i < bits.length / 512 → ∃ L, (∃ poly, berelekamp_massey (slice bits (i * 512) ((i + 1) * 512)) = .ok (L, poly)) ∧
      LinearComplexity (slice bits (i * 512) ((i + 1) * 512)) L := fun i hi => by
    have hlen : (slice bits (i * 512) ((i + 1) * 512)).length = 512 := by
      rw [slice_length (by omega)]
      omega
    obtain ⟨L, poly, h1, h2⟩ := C93_linear_complexity (bits := slice bits (i * 512) ((i + 1) * 512))
      (fun x hx => hb x (mem_of_mem_slice hx)) (by intro h; rw [h] at hlen; exact absurd hlen (by decide))
    exact ⟨L, ⟨poly, h1⟩, h2⟩
  choose! f hf using hl
  obtain ⟨w, e, h1, h2⟩ := linear_counts_run (bits := bits) (N := bits.length / 512) f fun i hi => (hf i hi).1
  have hw : ∀ k, k < 7 → ((w[k]?.getD 0 : Nat) : ℚ) = v k := fun k hk => by
    simp only [v]
    rw [h2 k hk, List.countP_eq_length_filter]
    have : (Finset.range (bits.length / 512)).filter (fun i =>
        ∃ L, LinearComplexity (slice bits (i * 512) ((i + 1) * 512)) L ∧ min 6 (L - 253) = k) =
        ((List.range (bits.length / 512)).filter fun i => lcClass (f i) == k).toFinset := by
      ext i
      simp only [Finset.mem_filter, Finset.mem_range, List.mem_toFinset, List.mem_filter, List.mem_range, beq_iff_eq]
      refine and_congr_right fun hi => ⟨?_, fun h => ⟨f i, (hf i hi).2, h⟩⟩
      rintro ⟨L, g1, g2⟩
      rw [(hf i hi).2.unique g1]
      exact g2
    rw [this, List.toFinset_card_of_nodup (List.nodup_range.filter _)]
  unfold linear_complexity_test
  simp only
  rw [if_neg (by omega), e, C_pure_bind, linear_chisq_run h1 (by omega) v hw, C_pure_bind]
  cases gammaincc 3 ((chiSquare 7 N v π : ℝ) / 2) <;> rfl

/-- C93: fewer bits fail the test with P value 0, without being looked at. -/
theorem C93_short (bits : List Nat) (hn : bits.length < 1000000) : linear_complexity_test bits none = .ok ⟨False, 0⟩ := by
  simp [linear_complexity_test, hn]
  rfl

/-- The hypotheses of the theorems above can be met. -/
example : Bits [1, 1, 0, 1, 0, 1, 1, 1, 1, 0, 0, 0, 1] ∧ ([1, 1, 0, 1, 0, 1, 1, 1, 1, 0, 0, 0, 1] : List Nat) ≠ [] := by
  unfold Bits; decide

/-- The example in the NIST publication (and in the file itself). -/
example : berelekamp_massey [1, 1, 0, 1, 0, 1, 1, 1, 1, 0, 0, 0, 1] = .ok (4, [1, 0, 0, 1]) := by decide +kernel

example : Bits (List.replicate 1000000 1) ∧ 1000000 ≤ (List.replicate 1000000 1).length :=
  ⟨fun x hx => by rw [List.eq_of_mem_replicate hx]; decide, by rw [List.length_replicate]⟩

end WB.sp
