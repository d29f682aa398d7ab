import Verif.Proof.LowMCBit

/-!
# C63 — the random bits of the LowMC method

Specification: a sequence of bits in which every bit is the sum of those 80, 67, 57, 42, 29 and 18
places before it, and a register of 80 bits holding a piece of the sequence.
-/
namespace WB

/-- `a` follows the recurrence `a[n+80] = a[n] + a[n+13] + a[n+23] + a[n+38] + a[n+51] + a[n+62]`. -/
def GrainSeq (a : Nat → Bool) : Prop :=
  ∀ n, a (n + 80) = (a n ^^ a (n + 13) ^^ a (n + 23) ^^ a (n + 38) ^^ a (n + 51) ^^ a (n + 62))

/-- The register holds `a[k], …, a[k+79]`, first bit lowest. -/
def HoldsAt (st : BitVec 80) (a : Nat → Bool) (k : Nat) : Prop := ∀ i < 80, st.getLsbD i = a (k + i)

open lowmc

theorem grain_seqOf {a : Nat → Bool} (ha : GrainSeq a) {st : BitVec 80} (h : HoldsAt st a 0) :
    ∀ n, a n = seqOf st.toNat n := by
  intro n
  induction n using Nat.strong_induction_on with
  | _ n ih =>
    by_cases hn : n < 80
    · have := h n hn
      rw [Nat.zero_add] at this
      rw [← this]
      have h2 := TNi_bit st.toNat 0 hn
      rw [Nat.zero_add] at h2
      exact h2
    · obtain ⟨k, rfl⟩ : ∃ k, n = k + 80 := ⟨n - 80, by omega⟩
      rw [ha, seqOf_rec st.isLt, ih k (by omega), ih (k + 13) (by omega), ih (k + 23) (by omega),
        ih (k + 38) (by omega), ih (k + 51) (by omega), ih (k + 62) (by omega)]

theorem holds_iter {a : Nat → Bool} (ha : GrainSeq a) {st : BitVec 80} (h : HoldsAt st a 0) (k : Nat) :
    HoldsAt (stOf (TN^[k] st.toNat)) a k := by
  intro i hi
  rw [stOf_bit i hi, TNi_bit _ _ hi, grain_seqOf ha h]
  rfl

theorem ret_seq {a : Nat → Bool} (ha : GrainSeq a) {st : BitVec 80} (h : HoldsAt st a 0) (k m y : Nat)
    (hr : RetIn SN Chosen m (TN^[k] st.toNat) y) :
    a (k + 80 + 2 * m) = true ∧ (∀ j < m, a (k + 80 + 2 * j) = false) ∧ y.testBit 79 = a (k + 81 + 2 * m) ∧
      HoldsAt (stOf y) a (k + 2 * m + 2) := by
  have e : ∀ j, SN^[j + 1] (TN^[k] st.toNat) = TN^[k + 2 * j + 2] st.toNat := by
    intro j
    rw [SN_iter, ← Function.iterate_add_apply]
    congr 1
    omega
  have b : ∀ j i, i < 80 → (SN^[j + 1] (TN^[k] st.toNat)).testBit i = a (k + 2 * j + 2 + i) := by
    intro j i hi
    rw [e, TNi_bit _ _ hi, grain_seqOf ha h]
    rfl
  obtain ⟨h1, h2, h3⟩ := hr
  subst h1
  refine ⟨?_, ?_, ?_, ?_⟩
  · have : (SN^[m + 1] (TN^[k] st.toNat)).testBit 78 = true := h2
    rw [b m 78 (by norm_num)] at this
    rw [← this]
    congr 1
    omega
  · intro j hj
    have : ¬ (SN^[j + 1] (TN^[k] st.toNat)).testBit 78 = true := h3 j hj
    rw [b j 78 (by norm_num), Bool.not_eq_true] at this
    rw [← this]
    congr 1
    omega
  · rw [b m 79 (by norm_num)]
    congr 1
    omega
  · rw [e]
    exact holds_iter ha h _

/-- A call of `getrandbit` whose register holds `a[0..79]` looks at the pairs `a[80], a[81]`,
`a[82], a[83]`, …, finds one whose first bit is 1 among the first 80, and returns the second bit of the
first such pair; the register then ends with this pair. -/
theorem C63_getrandbit (a : Nat → Bool) (ha : GrainSeq a) (st : BitVec 80) (hst : st ≠ 0)
    (h : HoldsAt st a 0) (fuel : Nat) (hf : 80 ≤ fuel) :
    ∃ m < 80, a (80 + 2 * m) = true ∧ (∀ j < m, a (80 + 2 * j) = false) ∧
      ∃ st', getrandbit fuel st = .ok (a (81 + 2 * m), st') ∧ HoldsAt st' a (2 * m + 2) := by
  obtain ⟨m, hm, hr⟩ := nextOf_spec st
  have hs : startOf st = TN^[0] st.toNat := if_neg hst
  rw [hs] at hr
  obtain ⟨h1, h2, h3, h4⟩ := ret_seq ha h 0 m _ hr
  rw [Nat.zero_add] at h1 h3
  refine ⟨m, hm, h1, fun j hj => ?_, stOf (nextOf st), ?_, ?_⟩
  · have := h2 j hj
    rwa [Nat.zero_add] at this
  · rw [getrandbit_next st fuel hf, h3]
  · rwa [Nat.zero_add] at h4

/-- The first call of the program (the register is zero) sets all bits, drops 160 bits and goes on in
the same way. -/
theorem C63_getrandbit_first (a : Nat → Bool) (ha : GrainSeq a) (h : ∀ i < 80, a i = true)
    (fuel : Nat) (hf : 80 ≤ fuel) :
    ∃ m < 80, a (240 + 2 * m) = true ∧ (∀ j < m, a (240 + 2 * j) = false) ∧
      ∃ st', getrandbit fuel 0 = .ok (a (241 + 2 * m), st') ∧ HoldsAt st' a (162 + 2 * m) := by
  obtain ⟨m, hm, hr⟩ := nextOf_spec 0
  have hh : HoldsAt (BitVec.allOnes 80) a 0 := by
    intro i hi
    rw [Nat.zero_add, h i hi, BitVec.getLsbD_allOnes, decide_eq_true hi]
  have hs : startOf 0 = TN^[160] (BitVec.allOnes 80).toNat := by
    rw [BitVec.toNat_allOnes]
    exact if_pos rfl
  rw [hs] at hr
  obtain ⟨h1, h2, h3, h4⟩ := ret_seq ha hh 160 m _ hr
  refine ⟨m, hm, h1, h2, stOf (nextOf 0), ?_, ?_⟩
  · rw [getrandbit_next 0 fuel hf, h3]
  · rwa [show 160 + 2 * m + 2 = 162 + 2 * m by omega] at h4

/-- A sequence of the register that is not zero throughout has the least period `2 ^ 80 - 1`, and every
pattern of 80 bits except zeros only occurs exactly once in a period. -/
theorem C63_sequence (a : Nat → Bool) (ha : GrainSeq a) (hne : ∃ n, a n = true) :
    (∀ n, a (n + (2 ^ 80 - 1)) = a n) ∧
    (∀ d, (∀ n, a (n + d) = a n) → 2 ^ 80 - 1 ∣ d) ∧
    ∀ st : BitVec 80, st ≠ 0 → ∃! k, k < 2 ^ 80 - 1 ∧ HoldsAt st a k := by
  obtain ⟨st0, h0⟩ : ∃ st : BitVec 80, HoldsAt st a 0 := by
    refine ⟨(BitVec.iunfoldr (fun (i : Fin 80) (_ : Unit) => ((), a i)) ()).2, fun i hi => ?_⟩
    rw [BitVec.iunfoldr_getLsbD (fun _ => ()) ⟨i, hi⟩ (fun _ => rfl), Nat.zero_add]
  have hseq := grain_seqOf ha h0
  have hst : st0.toNat ∈ nz := by
    refine mem_nz.2 ⟨fun hz => ?_, st0.isLt⟩
    obtain ⟨n, hn⟩ := hne
    rw [hseq, hz] at hn
    unfold seqOf at hn
    rw [Function.iterate_fixed TN_zero] at hn
    simp at hn
  refine ⟨fun n => ?_, fun d hd => ?_, fun st hs => ?_⟩
  · rw [hseq, hseq]
    unfold seqOf
    rw [Function.iterate_add_apply, TN_full st0.isLt]
  · apply TN_period st0.isLt (mem_nz.1 hst).1
    apply eq_of_low (TNi_lt st0.isLt d) st0.isLt
    intro i hi
    rw [TNi_bit _ _ hi]
    have := TNi_bit st0.toNat 0 hi
    rw [Nat.zero_add] at this
    have e := hd i
    rw [hseq, hseq, Nat.add_comm] at e
    exact e.trans this.symm
  · have hmem : st.toNat ∈ nz := mem_nz.2 ⟨fun hz => hs (BitVec.eq_of_toNat_eq hz), st.isLt⟩
    have him := hmem
    rw [← TN_cycle.image hst] at him
    obtain ⟨k, hk, hk2⟩ := Finset.mem_image.1 him
    have hk := Finset.mem_range.1 hk
    refine ⟨k, ⟨hk, ?_⟩, ?_⟩
    · have := holds_iter ha h0 k
      rw [show TN^[k] st0.toNat = st.toNat from hk2, stOf_toNat] at this
      exact this
    · rintro j ⟨hj, hh⟩
      apply TN_cycle.inj _ hst _ hj _ hk
      rw [show TN^[k] st0.toNat = st.toNat from hk2]
      apply eq_of_low (TNi_lt st0.isLt j) st.isLt
      intro i hi
      have h2 := hh i hi
      rw [TNi_bit _ _ hi]
      have h3 : st.getLsbD i = st.toNat.testBit i := rfl
      rw [← h3, h2, hseq]
      rfl

/-- The sequences meant above exist: one for every content of the register. -/
example (st : BitVec 80) : ∃ a, GrainSeq a ∧ HoldsAt st a 0 :=
  ⟨seqOf st.toNat, seqOf_rec st.isLt, fun i hi => by
    have := TNi_bit st.toNat 0 hi
    rw [Nat.zero_add] at this ⊢
    exact this⟩

example : ∃ a, GrainSeq a ∧ ∀ i < 80, a i = true :=
  ⟨seqOf (2 ^ 80 - 1), seqOf_rec (by norm_num), fun i hi => by
    have := TNi_bit (2 ^ 80 - 1) 0 hi
    rw [Nat.zero_add] at this
    unfold seqOf
    rw [← this]
    show (2 ^ 80 - 1).testBit i = true
    rw [Nat.testBit_two_pow_sub_one, decide_eq_true hi]⟩

/-- All later calls.  Whatever the register contains, the calls return bits `b 0, b 1, …` and leave the
register in states `s 1, s 2, …`; the bits have period `2 ^ 79`, every stretch of `2 ^ 79` of them
contains exactly `2 ^ 78` ones, and in such a stretch the register takes every value whose bit 78 is
set, once each (so it never becomes zero again). -/
theorem C63_calls (st : BitVec 80) : ∃ (b : Nat → Bool) (s : Nat → BitVec 80), s 0 = st ∧
    (∀ i, ∀ fuel ≥ 80, getrandbit fuel (s i) = .ok (b i, s (i + 1))) ∧
    (∀ i, b (i + 2 ^ 79) = b i) ∧
    (∀ i, ((Finset.range (2 ^ 79)).filter fun j => b (i + j) = true).card = 2 ^ 78) ∧
    (∀ i, (s (i + 1)).getLsbD 78 = true ∧ (s (i + 1)).getLsbD 79 = b i) ∧
    ∀ i, ∀ t : BitVec 80, t.getLsbD 78 = true → ∃! j, j < 2 ^ 79 ∧ s (i + 1 + j) = t := by
  refine ⟨bitAt st, stateAt st, rfl, fun i fuel hf => stateAt_run st i fuel hf, bits_period st,
    bits_balanced st, fun i => ⟨state_chosen st i, state_bit st i⟩, fun i t ht => ?_⟩
  obtain ⟨j, hj, h⟩ := states_surj st i t ht
  refine ⟨j, ⟨hj, by rw [← h]; congr 1; omega⟩, ?_⟩
  rintro k ⟨hk, h2⟩
  apply states_inj st i k j hk hj
  rw [h, ← h2]
  congr 1
  omega

/-- The first bits of the program. -/
def firstBits : Nat → BitVec 80 → List Bool
  | 0, _ => []
  | n + 1, st => match getrandbit 80 st with
    | .ok (b, st') => b :: firstBits n st'
    | .error _ => []

example : firstBits 16 0 = [false, false, true, true, false, false, false, true, true, true, false, false,
    false, false, false, true] := by decide +kernel

/-- `n` pairs in a row whose first bit is 0. -/
noncomputable def quiet (n : Nat) : Nat → Bool :=
  @Nat.rec (fun _ => Nat → Bool) (fun _ => true)
    (fun _ ih x => forceN (TN x) fun x => forceN (TN x) fun x =>
      @Bool.rec (fun _ => Bool) (ih x) false (Nat.testBit x 78)) n

theorem quiet_spec (n : Nat) : ∀ x, quiet n x = true → ∀ j < n, ¬ Chosen (SN^[j + 1] x) := by
  induction n with
  | zero => intro x _ j hj; omega
  | succ n ih =>
    intro x h j hj
    have e : quiet (n + 1) x =
        @Bool.rec (fun _ => Bool) (quiet n (SN x)) false (Nat.testBit (SN x) 78) := by
      unfold quiet
      simp only [forceN_eq]
      rfl
    rw [e] at h
    cases hb : Nat.testBit (SN x) 78
    · rw [hb] at h
      cases j with
      | zero =>
        intro hc
        have hc : Nat.testBit (SN x) 78 = true := hc
        rw [hb] at hc
        exact absurd hc (by simp)
      | succ j => exact ih (SN x) h j (by omega)
    · rw [hb] at h
      exact absurd h (by simp)

/-- The bound of 80 pairs is attained. -/
theorem C63_bound_attained : ∃ st : BitVec 80, st ≠ 0 ∧ getrandbit 79 st = .error .diverge ∧
    ∃ b st', getrandbit 80 st = .ok (b, st') := by
  have hq : quiet 79 0xe2a20230020b268088a5 = true := by decide +kernel
  have hn : 0xe2a20230020b268088a5 ∈ nz := mem_nz.2 ⟨by norm_num, by norm_num⟩
  refine ⟨stOf 0xe2a20230020b268088a5, fun h => ?_, ?_, _, _, getrandbit_next _ 80 le_rfl⟩
  · have := congrArg BitVec.toNat h
    rw [toNat_stOf (by norm_num)] at this
    exact absurd this (by decide)
  · rw [getrandbit_start, startOf_stOf hn]
    exact pairLoop_short hn (quiet_spec 79 _ hq)

end WB
