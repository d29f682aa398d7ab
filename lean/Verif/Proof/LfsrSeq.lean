import Verif.Proof.Lfsr
import Verif.Proof.Return

/-!
# The register of `LowMCMethod_text.cpp` read as a sequence, and in pairs
-/
namespace WB.lowmc

theorem tapN_bit (x : Nat) : (tapN x).testBit 0 =
    (x.testBit 0 ^^ x.testBit 13 ^^ x.testBit 23 ^^ x.testBit 38 ^^ x.testBit 51 ^^ x.testBit 62) := by
  show ((x ^^^ (x >>> 13) ^^^ (x >>> 23) ^^^ (x >>> 38) ^^^ (x >>> 51) ^^^ (x >>> 62)) &&& 1).testBit 0 = _
  simp only [Nat.testBit_and, Nat.testBit_xor, Nat.testBit_shiftRight]
  simp

theorem TN_bit_lt (x : Nat) {i : Nat} (hi : i < 79) : (TN x).testBit i = x.testBit (i + 1) := by
  show ((x >>> 1) ^^^ (tapN x <<< 79)).testBit i = _
  rw [Nat.testBit_xor, Nat.testBit_shiftRight, Nat.testBit_shiftLeft, decide_eq_false (by omega)]
  rw [Bool.false_and, Bool.xor_false, Nat.add_comm]

theorem TN_bit_top {x : Nat} (hx : x < 2 ^ 80) : (TN x).testBit 79 =
    (x.testBit 0 ^^ x.testBit 13 ^^ x.testBit 23 ^^ x.testBit 38 ^^ x.testBit 51 ^^ x.testBit 62) := by
  rw [← tapN_bit]
  show ((x >>> 1) ^^^ (tapN x <<< 79)).testBit 79 = _
  rw [Nat.testBit_xor, Nat.testBit_shiftRight, Nat.testBit_shiftLeft, decide_eq_true (by omega),
    Nat.testBit_lt_two_pow (show x < 2 ^ (1 + 79) from hx), Bool.false_xor, Bool.true_and]

theorem TNi_bit (x n : Nat) {i : Nat} (hi : i < 80) :
    (TN^[n] x).testBit i = (TN^[n + i] x).testBit 0 := by
  induction i generalizing n with
  | zero => rfl
  | succ i ih =>
    rw [← TN_bit_lt _ (by omega), ← Function.iterate_succ_apply' TN, ih _ (by omega)]
    congr 2
    omega

/-- The sequence of the register started in `x`. -/
def seqOf (x n : Nat) : Bool := (TN^[n] x).testBit 0

theorem seqOf_rec {x : Nat} (hx : x < 2 ^ 80) (n : Nat) : seqOf x (n + 80) =
    (seqOf x n ^^ seqOf x (n + 13) ^^ seqOf x (n + 23) ^^ seqOf x (n + 38) ^^ seqOf x (n + 51) ^^
      seqOf x (n + 62)) := by
  have h := TN_bit_top (TNi_lt hx n)
  rw [← Function.iterate_succ_apply' TN, TNi_bit _ _ (by omega)] at h
  rw [TNi_bit _ _ (show 0 < 80 by omega), TNi_bit _ _ (show 13 < 80 by omega),
    TNi_bit _ _ (show 23 < 80 by omega), TNi_bit _ _ (show 38 < 80 by omega),
    TNi_bit _ _ (show 51 < 80 by omega), TNi_bit _ _ (show 62 < 80 by omega)] at h
  rw [show n.succ + 79 = n + 80 by omega] at h
  exact h

theorem eq_of_low {x y : Nat} (hx : x < 2 ^ 80) (hy : y < 2 ^ 80)
    (h : ∀ i < 80, x.testBit i = y.testBit i) : x = y := by
  apply Nat.eq_of_testBit_eq
  intro i
  by_cases hi : i < 80
  · exact h i hi
  · have hp : 2 ^ 80 ≤ 2 ^ i := Nat.pow_le_pow_right (by norm_num) (by omega)
    rw [Nat.testBit_lt_two_pow (lt_of_lt_of_le hx hp), Nat.testBit_lt_two_pow (lt_of_lt_of_le hy hp)]

/-! ## Cycles -/

/-- The non-zero states. -/
def nz : Finset Nat := Finset.Ico 1 (2 ^ 80)

theorem mem_nz {x : Nat} : x ∈ nz ↔ x ≠ 0 ∧ x < 2 ^ 80 := by
  unfold nz
  rw [Finset.mem_Ico]
  omega

theorem TN_cycle : OneCycle TN (2 ^ 80 - 1) nz where
  maps x hx := by
    obtain ⟨h0, h1⟩ := mem_nz.1 hx
    exact mem_nz.2 ⟨TN_ne h1 h0, TN_lt h1⟩
  full x hx := TN_full (mem_nz.1 hx).2
  inj x hx i hi j hj h := by
    obtain ⟨h0, h1⟩ := mem_nz.1 hx
    have key : ∀ i j, i ≤ j → j < 2 ^ 80 - 1 → TN^[i] x = TN^[j] x → i = j := by
      intro i j hij hj h
      obtain ⟨d, rfl⟩ := Nat.exists_eq_add_of_le hij
      have hper : TN^[d] x = x := by
        have hh : TN^[2 ^ 80 - 1 - i] (TN^[i] x) = TN^[2 ^ 80 - 1 - i] (TN^[i + d] x) := by rw [h]
        rw [← Function.iterate_add_apply, ← Function.iterate_add_apply,
          Nat.sub_add_cancel (by omega), show 2 ^ 80 - 1 - i + (i + d) = d + (2 ^ 80 - 1) by omega,
          Function.iterate_add_apply, TN_full h1] at hh
        exact hh.symm
      have := Nat.eq_zero_of_dvd_of_lt (TN_period h1 h0 hper) (by omega)
      omega
    rcases le_total i j with hij | hij
    · exact key i j hij hj h
    · exact (key j i hij hi h.symm).symm
  card := by unfold nz; rw [Nat.card_Ico]

/-- Two steps at once. -/
def SN (x : Nat) : Nat := TN (TN x)

theorem SN_iter (n x : Nat) : SN^[n] x = TN^[2 * n] x := by
  rw [Function.iterate_mul]
  rfl

theorem OneCycle.twice {N : Nat} {Q : Finset Nat} (h : OneCycle TN N Q) (hN : N % 2 = 1) : OneCycle SN N Q where
  maps x hx := h.maps _ (h.maps _ hx)
  full x hx := by
    rw [SN_iter, two_mul, Function.iterate_add_apply, h.full x hx, h.full x hx]
  inj x hx i hi j hj hij := by
    rw [SN_iter, SN_iter] at hij
    have red : ∀ n, TN^[n] x = TN^[n % N] x := by
      intro n
      conv_lhs => rw [← Nat.mod_add_div n N, Function.iterate_add_apply]
      congr 1
      rw [Function.iterate_mul]
      exact Function.iterate_fixed (h.full x hx) _
    have hpos : 0 < N := by omega
    rw [red (2 * i), red (2 * j)] at hij
    have h1 := h.inj x hx _ (Nat.mod_lt _ hpos) _ (Nat.mod_lt _ hpos) hij
    have aux : ∀ i < N, (2 * i) % N = if 2 * i < N then 2 * i else 2 * i - N := by
      intro i hi
      split
      · exact Nat.mod_eq_of_lt (by assumption)
      · rw [Nat.mod_eq_sub_mod (by omega), Nat.mod_eq_of_lt (by omega)]
    rw [aux i hi, aux j hj] at h1
    split at h1 <;> split at h1 <;> omega
  card := h.card

theorem SN_cycle : OneCycle SN (2 ^ 80 - 1) nz := TN_cycle.twice (by norm_num)

/-! ## The condition of the loop of `getrandbit` -/

/-- States after a pair whose first bit was 1. -/
def Chosen (x : Nat) : Prop := x.testBit 78 = true

instance : DecidablePred Chosen := fun x => inferInstanceAs (Decidable (x.testBit 78 = true))

theorem SN_check : Nat.beq (powT chainTab (2 * 80) e0) (e0 ^^^ powT chainTab (2 * 13) e0 ^^^
    powT chainTab (2 * 23) e0 ^^^ powT chainTab (2 * 38) e0 ^^^ powT chainTab (2 * 51) e0 ^^^
    powT chainTab (2 * 62) e0) = true := by decide +kernel

attribute [local irreducible] powT chainTab e0 pol

theorem SN_rec {x : Nat} (hx : x < 2 ^ 80) : SN^[80] x =
    x ^^^ SN^[13] x ^^^ SN^[23] x ^^^ SN^[38] x ^^^ SN^[51] x ^^^ SN^[62] x := by
  have hl : ∀ n, Lin (SN^[n]) := by
    intro n
    have : SN^[n] = TN^[2 * n] := funext (SN_iter n)
    rw [this]
    exact lin_iter _
  refine lin_ext (hl 80) (lin_xor (lin_xor (lin_xor (lin_xor (lin_xor lin_id (hl 13)) (hl 23)) (hl 38)) (hl 51))
    (hl 62)) ?_ x hx
  have hp : ∀ n < 2 ^ 80, SN^[n] e0 = powT chainTab (2 * n) e0 := fun n hn => by
    rw [SN_iter, powT_chain _ (by omega) _ e0_lt]
  show SN^[80] e0 = e0 ^^^ SN^[13] e0 ^^^ SN^[23] e0 ^^^ SN^[38] e0 ^^^ SN^[51] e0 ^^^ SN^[62] e0
  rw [hp 80 (by norm_num), hp 13 (by norm_num), hp 23 (by norm_num), hp 38 (by norm_num), hp 51 (by norm_num),
    hp 62 (by norm_num)]
  exact Nat.eq_of_beq_eq_true SN_check

/-- Among 80 pairs there is one whose first bit is 1. -/
theorem chosen_within {x : Nat} (hx : x ∈ nz) : ∃ m < 80, Chosen (SN^[m + 1] x) := by
  by_contra hcon
  have h80 : ∀ m < 80, (SN^[m + 1] x).testBit 78 = false := by
    intro m hm
    cases hb : (SN^[m + 1] x).testBit 78
    · rfl
    · exact absurd ⟨m, hm, hb⟩ hcon
  have hlt : ∀ n, SN^[n] x < 2 ^ 80 := fun n => (mem_nz.1 (SN_cycle.iter hx n)).2
  have hall : ∀ m, (SN^[m + 1] x).testBit 78 = false := by
    intro m
    induction m using Nat.strong_induction_on with
    | _ m ih =>
      by_cases hm : m < 80
      · exact h80 m hm
      · obtain ⟨k, rfl⟩ : ∃ k, m = k + 80 := ⟨m - 80, by omega⟩
        have := SN_rec (hlt (k + 1))
        rw [← Function.iterate_add_apply, ← Function.iterate_add_apply, ← Function.iterate_add_apply,
          ← Function.iterate_add_apply, ← Function.iterate_add_apply, ← Function.iterate_add_apply] at this
        rw [show k + 80 + 1 = 80 + (k + 1) by omega, this]
        simp only [Nat.testBit_xor]
        have g := fun d (hd : d < 80) => ih (k + d) (by omega)
        have g' : ∀ d < 80, (SN^[d + (k + 1)] x).testBit 78 = false := by
          intro d hd
          have := g d hd
          rwa [show k + d + 1 = d + (k + 1) by omega] at this
        rw [g' 13 (by omega), g' 23 (by omega), g' 38 (by omega), g' 51 (by omega), g' 62 (by omega),
          ih k (by omega)]
        rfl
  have hmem : 2 ^ 78 ∈ nz := mem_nz.2 ⟨by norm_num, by norm_num⟩
  rw [← SN_cycle.image1 hx] at hmem
  obtain ⟨j, _, hj⟩ := Finset.mem_image.1 hmem
  have := hall j
  rw [show SN^[j + 1] x = 2 ^ 78 from hj, Nat.testBit_two_pow_self] at this
  exact absurd this (by simp)

theorem chosen_card : (nz.filter Chosen).card = 2 ^ 79 := by
  have : nz.filter Chosen = Finset.Ico (2 ^ 78) (2 ^ 79) ∪ Finset.Ico (3 * 2 ^ 78) (2 ^ 80) := by
    ext x
    rw [Finset.mem_filter, mem_nz, Finset.mem_union, Finset.mem_Ico, Finset.mem_Ico]
    unfold Chosen
    rw [Nat.testBit_eq_decide_div_mod_eq, decide_eq_true_iff]
    omega
  rw [this, Finset.card_union_of_disjoint, Nat.card_Ico, Nat.card_Ico]
  · norm_num
  · rw [Finset.disjoint_left]
    intro x hx hy
    rw [Finset.mem_Ico] at hx hy
    omega

theorem chosen_ones : ((nz.filter Chosen).filter fun x => x.testBit 79 = true).card = 2 ^ 78 := by
  have : ((nz.filter Chosen).filter fun x => x.testBit 79 = true) = Finset.Ico (3 * 2 ^ 78) (2 ^ 80) := by
    ext x
    rw [Finset.mem_filter, Finset.mem_filter, mem_nz, Finset.mem_Ico]
    unfold Chosen
    rw [Nat.testBit_eq_decide_div_mod_eq, decide_eq_true_iff, Nat.testBit_eq_decide_div_mod_eq,
      decide_eq_true_iff]
    omega
  rw [this, Nat.card_Ico]
  norm_num

end WB.lowmc
