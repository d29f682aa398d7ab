import Mathlib.RingTheory.PowerSeries.Basic
import Mathlib.Algebra.CharP.Two
import Mathlib.Data.Nat.Bitwise
import Mathlib.Tactic.Linarith
import Mathlib.Tactic.IntervalCases
import Mathlib.Tactic.NormNum
import Verif.Model.SpLinear
import Verif.Proof.SpBase
import Verif.SpecSp

/-!
# The Berlekamp–Massey algorithm (helper lemmas)
-/
namespace WB.sp
open PowerSeries

/-- The sequence as a power series. -/
noncomputable def ser (bits : List Nat) : PowerSeries (ZMod 2) := PowerSeries.mk (bit bits)

/-- `C` is the connection polynomial of a register of length `L` for the first `n` terms. -/
structure Gen (S C : PowerSeries (ZMod 2)) (L n : Nat) : Prop where
  zero : coeff 0 C = 1
  deg : ∀ i, L < i → coeff i C = 0
  lfsr : ∀ j, L ≤ j → j < n → coeff j (C * S) = 0

theorem Gen.le {S C : PowerSeries (ZMod 2)} {L n k : Nat} (h : Gen S C L n) (hk : k ≤ n) : Gen S C L k :=
  ⟨h.zero, h.deg, fun j h1 h2 => h.lfsr j h1 (by omega)⟩

theorem massey {S C D : PowerSeries (ZMod 2)} {L K N : Nat} (h : Gen S C L N) (hn : coeff N (C * S) ≠ 0)
    (hD : Gen S D K (N + 1)) : N + 1 ≤ L + K := by
  by_contra hlt
  have e1 : coeff N (D * (C * S)) = coeff N (C * S) := by
    rw [PowerSeries.coeff_mul, Finset.sum_eq_single (0, N)]
    · rw [hD.zero, one_mul]
    · rintro ⟨a, b⟩ hab hne
      rw [Finset.mem_antidiagonal] at hab
      by_cases ha : K < a
      · rw [hD.deg a ha, zero_mul]
      · have : a ≠ 0 := by
          rintro rfl
          apply hne
          simp only [Nat.zero_add] at hab
          rw [hab]
        rw [h.lfsr b (by simp only at hab; omega) (by simp only at hab; omega), mul_zero]
    · intro hx
      exact absurd (by simp) hx
  have e2 : coeff N (C * (D * S)) = 0 := by
    rw [PowerSeries.coeff_mul]
    apply Finset.sum_eq_zero
    rintro ⟨a, b⟩ hab
    rw [Finset.mem_antidiagonal] at hab
    by_cases ha : L < a
    · rw [h.deg a ha, zero_mul]
    · rw [hD.lfsr b (by simp only at hab; omega) (by simp only at hab; omega), mul_zero]
  apply hn
  rw [← e1, ← e2]
  congr 1
  ring

theorem coeff_rec (S C : PowerSeries (ZMod 2)) {L j : Nat} (hd : ∀ i, L < i → coeff i C = 0) (hj : L ≤ j) :
    coeff j (C * S) = ∑ i ∈ Finset.range (L + 1), coeff i C * coeff (j - i) S := by
  rw [PowerSeries.coeff_mul, Finset.Nat.sum_antidiagonal_eq_sum_range_succ (fun a b => coeff a C * coeff b S)]
  symm
  apply Finset.sum_subset
  · intro x hx
    rw [Finset.mem_range] at hx ⊢
    omega
  · intro x _ hx
    rw [Finset.mem_range] at hx
    rw [hd x (by omega), zero_mul]

theorem coeff_ser (bits : List Nat) (j : Nat) : coeff j (ser bits) = bit bits j := coeff_mk _ _

theorem register_of_gen {bits : List Nat} {L : Nat} {C : PowerSeries (ZMod 2)} (h : Gen (ser bits) C L bits.length) :
    Register bits L fun i => coeff (i + 1) C := fun j h1 h2 => by
  have := h.lfsr j h1 h2
  rw [coeff_rec _ _ h.deg h1, Finset.sum_range_succ', h.zero, one_mul, Nat.sub_zero] at this
  simp only [coeff_ser] at this
  rw [add_comm, CharTwo.add_eq_zero] at this
  rw [this]
  apply Finset.sum_congr rfl
  intro i _
  rw [show j - (i + 1) = j - 1 - i by omega]

/-- Registers and connection polynomials are the same. -/
theorem register_iff (bits : List Nat) (L : Nat) :
    (∃ taps, Register bits L taps) ↔ ∃ C, Gen (ser bits) C L bits.length := by
  constructor
  · rintro ⟨taps, h⟩
    refine ⟨PowerSeries.mk fun i => if i = 0 then 1 else if i ≤ L then taps (i - 1) else 0, by simp, ?_, ?_⟩
    · intro i hi
      rw [coeff_mk, if_neg (by omega), if_neg (by omega)]
    · intro j h1 h2
      rw [coeff_rec _ _ (L := L) (fun i hi => by rw [coeff_mk, if_neg (by omega), if_neg (by omega)]) h1, Finset.sum_range_succ']
      simp only [coeff_mk, coeff_ser, if_true, one_mul, Nat.sub_zero]
      rw [h j h1 h2, ← Finset.sum_add_distrib]
      apply Finset.sum_eq_zero
      intro i hi
      rw [Finset.mem_range] at hi
      rw [if_neg (by omega), if_pos (by omega), Nat.add_sub_cancel, show j - (i + 1) = j - 1 - i by omega]
      exact CharTwo.add_self_eq_zero _
  · rintro ⟨C, h⟩
    exact ⟨_, register_of_gen h⟩

/-- The array `c` holds the first coefficients of `C`. -/
def Holds (c : List Nat) (n : Nat) (C : PowerSeries (ZMod 2)) : Prop :=
  c.length = n ∧ Bits c ∧ ∀ i, i < n → bit c i = coeff i C

/-- The state before the term `N` is treated. -/
def Inv (bits : List Nat) (N : Nat) (s : BM) : Prop :=
  ∃ (C B : PowerSeries (ZMod 2)) (p K : Nat), s.m = (p : Int) - 1 ∧ s.L + K = p ∧ p ≤ N ∧
    Holds s.c bits.length C ∧ Holds s.b bits.length B ∧ Gen (ser bits) C s.L N ∧ Gen (ser bits) B K (p - 1) ∧
    (0 < p → coeff (p - 1) (B * ser bits) = 1) ∧ ∀ D L, Gen (ser bits) D L N → s.L ≤ L

theorem cast_xor (a b : Nat) : ((a ^^^ b : Nat) : ZMod 2) = a + b := by
  rw [← Nat.cast_add, ZMod.natCast_eq_natCast_iff]
  exact Nat.xor_mod_two_eq
  
theorem cast_and {a b : Nat} (ha : a < 2) (hb : b < 2) : ((a &&& b : Nat) : ZMod 2) = a * b := by
  have : ∀ a < 2, ∀ b < 2, ((a &&& b : Nat) : ZMod 2) = a * b := by decide
  exact this a ha b hb

theorem Bits.lt {l : List Nat} (h : Bits l) (i : Nat) : l[i]?.getD 0 < 2 := by
  by_cases hi : i < l.length
  · rw [List.getElem?_eq_getElem hi]
    exact h _ (List.getElem_mem hi)
  · rw [List.getElem?_eq_none (by omega)]
    exact Nat.zero_lt_two

theorem cast_eq_zero {a : Nat} (ha : a < 2) : (a : ZMod 2) = 0 ↔ a = 0 := by
  have : ∀ a : Nat, a < 2 → ((a : ZMod 2) = 0 ↔ a = 0) := by decide
  exact this a ha

theorem xor_lt {a b : Nat} (ha : a < 2) (hb : b < 2) : a ^^^ b < 2 := by
  have : ∀ a < 2, ∀ b < 2, a ^^^ b < 2 := by decide
  exact this a ha b hb

theorem and_lt {a b : Nat} (ha : a < 2) (hb : b < 2) : a &&& b < 2 := by
  have : ∀ a < 2, ∀ b < 2, a &&& b < 2 := by decide
  exact this a ha b hb

theorem discrepancy_run {bits : List Nat} (hb : Bits bits) {N : Nat} {s : BM} (h : Inv bits N s) (hN : N < bits.length) :
    Ok (discrepancy bits N s) fun d => d < 2 ∧ ∀ C, Holds s.c bits.length C → Gen (ser bits) C s.L N →
      (d : ZMod 2) = coeff N (C * ser bits) := by
  obtain ⟨_, _, p, K, -, h1, h2, hc, -⟩ := h
  unfold discrepancy
  rw [ix_getD 0 hN, C_pure_bind]
  refine Ok.forUp (P := fun i d => d < 2 ∧
    (d : ZMod 2) = bit bits N + ∑ k ∈ Finset.range (i - 1), bit s.c (k + 1) * bit bits (N - (k + 1))) (by omega)
    ⟨hb.lt N, by simp [bit]⟩ ?_ ?_
  · rintro i d g1 g2 ⟨g3, g4⟩
    rw [ix_getD 0 (by rw [hc.1]; omega), C_pure_bind, ix_getD 0 (by omega), C_pure_bind]
    rw [Ok.pure_iff]
    refine ⟨xor_lt g3 (and_lt (hc.2.1.lt i) (hb.lt _)), ?_⟩
    rw [cast_xor, cast_and (hc.2.1.lt i) (hb.lt _), g4]
    obtain ⟨k, rfl⟩ : ∃ k, i = k + 1 := ⟨i - 1, by omega⟩
    simp only [Nat.add_sub_cancel]
    rw [Finset.sum_range_succ, add_assoc]
    rfl
  · rintro d ⟨g1, g2⟩
    refine ⟨g1, fun C hC hG => ?_⟩
    rw [g2, coeff_rec _ _ hG.deg (by omega), Finset.sum_range_succ', hG.zero, one_mul, Nat.sub_zero, Nat.add_sub_cancel, add_comm,
      coeff_ser]
    congr 1
    apply Finset.sum_congr rfl
    intro k hk
    rw [Finset.mem_range] at hk
    rw [coeff_ser, hC.2.2 _ (by omega)]

theorem bit_set (l : List Nat) (i j x : Nat) (h : i < l.length) : bit (l.set i x) j = if i = j then (x : ZMod 2) else bit l j := by
  unfold bit
  rw [List.getElem?_set]
  split
  · rfl
  · rfl

theorem Bits.set {l : List Nat} (h : Bits l) (i x : Nat) (hx : x < 2) : Bits (l.set i x) := fun y hy => by
  rcases List.mem_or_eq_of_mem_set hy with g | g
  · exact h y g
  · rw [g]; exact hx

theorem zmod2_one {x : ZMod 2} (h : x ≠ 0) : x = 1 := by
  revert x
  decide

/-- The update of `c` adds `b` shifted. -/
theorem adjust_loop {n N p : Nat} {s : BM} {C B : PowerSeries (ZMod 2)} (hm : s.m = (p : Int) - 1) (hp : p ≤ N) (hN : N < n)
    (hc : Holds s.c n C) (hB : Holds s.b n B) :
    Ok (forUp 0 ((n : Int) - N + s.m).toNat s.c fun i c => do
      let j := ((N : Int) - s.m + i).toNat
      put c j ((← ix c j) ^^^ (← ix s.b i))) fun c => Holds c n (C + X ^ (N + 1 - p) * B) := by
  have e1 : ((n : Int) - N + s.m).toNat = n - (N + 1 - p) := by omega
  rw [e1]
  refine Ok.forUp (P := fun i c => c.length = n ∧ Bits c ∧ ∀ j, j < n →
    bit c j = coeff j C + if N + 1 - p ≤ j ∧ j < N + 1 - p + i then coeff (j - (N + 1 - p)) B else 0) (by omega)
    ⟨hc.1, hc.2.1, fun j hj => ?_⟩ ?_ ?_
  · rw [if_neg (by omega), add_zero, hc.2.2 j hj]
  · rintro i c - g2 ⟨g3, g4, g5⟩
    have e2 : ((N : Int) - s.m + i).toNat = N + 1 - p + i := by omega
    rw [e2]
    simp only []
    rw [ix_getD 0 (by omega), C_pure_bind, ix_getD 0 (by rw [hB.1]; omega), C_pure_bind, put_ok _ (by omega), Ok.ok_iff]
    refine ⟨by rw [List.length_set, g3], g4.set _ _ (xor_lt (g4.lt _) (hB.2.1.lt _)), fun j hj => ?_⟩
    rw [bit_set _ _ _ _ (by omega)]
    by_cases h : N + 1 - p + i = j
    · subst h
      rw [if_pos rfl, cast_xor, if_pos (by omega)]
      have h1 := g5 _ hj
      rw [if_neg (by omega), add_zero] at h1
      have h2 := hB.2.2 i (by omega)
      unfold bit at h1 h2
      rw [h1, h2, show N + 1 - p + i - (N + 1 - p) = i by omega]
    · rw [if_neg h, g5 j hj]
      congr 1
      by_cases h3 : N + 1 - p ≤ j ∧ j < N + 1 - p + i
      · rw [if_pos h3, if_pos (by omega)]
      · rw [if_neg h3, if_neg (by omega)]
  · rintro c ⟨g1, g2, g3⟩
    refine ⟨g1, g2, fun j hj => ?_⟩
    rw [g3 j hj, map_add, coeff_X_pow_mul']
    congr 1
    by_cases h : N + 1 - p ≤ j
    · rw [if_pos (by omega), if_pos h]
    · rw [if_neg (by omega), if_neg h]

theorem coeff_shift (S C B : PowerSeries (ZMod 2)) (k j : Nat) :
    coeff j ((C + X ^ k * B) * S) = coeff j (C * S) + if k ≤ j then coeff (j - k) (B * S) else 0 := by
  rw [add_mul, map_add, mul_assoc, coeff_X_pow_mul']

theorem adjust_run {bits : List Nat} {N : Nat} {s : BM} {C B : PowerSeries (ZMod 2)} {p K : Nat} (hm : s.m = (p : Int) - 1)
    (hL : s.L + K = p) (hp : p ≤ N) (hN : N < bits.length) (hc : Holds s.c bits.length C) (hB : Holds s.b bits.length B)
    (hC : Gen (ser bits) C s.L N) (hG : Gen (ser bits) B K (p - 1)) (h1 : 0 < p → coeff (p - 1) (B * ser bits) = 1)
    (hmin : ∀ D L, Gen (ser bits) D L N → s.L ≤ L) (hd : coeff N (C * ser bits) = 1) :
    Ok (adjust bits.length N s) (Inv bits (N + 1)) := by
  unfold adjust
  refine Ok.bind (adjust_loop hm hp hN hc hB) fun c' hc' => ?_
  have hz : coeff 0 (C + X ^ (N + 1 - p) * B) = 1 := by
    rw [map_add, coeff_X_pow_mul', if_neg (by omega), add_zero, hC.zero]
  by_cases h : 2 * s.L ≤ N
  · rw [if_pos h, Ok.pure_iff]
    refine ⟨_, C, N + 1, s.L, by simp, by simp; omega, le_refl _, hc', hc, ⟨hz, ?_, ?_⟩, hC, fun _ => hd, ?_⟩
    · intro i hi
      simp only at hi
      rw [map_add, coeff_X_pow_mul', hC.deg i (by omega), zero_add]
      split
      · exact hG.deg _ (by omega)
      · rfl
    · intro j h3 h4
      simp only at h3
      rw [coeff_shift, if_pos (by omega)]
      by_cases h5 : j = N
      · subst h5
        have hp' : 0 < p := by omega
        rw [hd, show j - (j + 1 - p) = p - 1 by omega, h1 hp']
        exact CharTwo.add_self_eq_zero _
      · rw [hC.lfsr j (by omega) (by omega), hG.lfsr _ (by omega) (by omega), add_zero]
    · intro D L hD
      have := massey hC (by rw [hd]; exact one_ne_zero) hD
      simp only
      omega
  · rw [if_neg h, Ok.pure_iff]
    have hp' : 0 < p := by omega
    refine ⟨_, B, p, K, hm, hL, by omega, hc', hB, ⟨hz, ?_, ?_⟩, hG, h1, fun D L hD => hmin D L (hD.le (by omega))⟩
    · intro i hi
      simp only at hi
      rw [map_add, coeff_X_pow_mul', hC.deg i (by omega), zero_add]
      split
      · exact hG.deg _ (by omega)
      · rfl
    · intro j h3 h4
      simp only at h3
      rw [coeff_shift]
      by_cases h5 : j = N
      · subst h5
        rw [hd, if_pos (by omega), show j - (j + 1 - p) = p - 1 by omega, h1 hp']
        exact CharTwo.add_self_eq_zero _
      · rw [hC.lfsr j (by omega) (by omega), zero_add]
        split
        · exact hG.lfsr _ (by omega) (by omega)
        · rfl

theorem bit_init {bits : List Nat} (h : 0 < bits.length) :
    Holds ((bits.map fun _ => 0).set 0 1) bits.length 1 := by
  refine ⟨by simp, ?_, fun i hi => ?_⟩
  · intro x hx
    rcases List.mem_or_eq_of_mem_set hx with g | g
    · obtain ⟨_, _, rfl⟩ := List.mem_map.1 g
      exact Nat.zero_lt_two
    · rw [g]; exact Nat.one_lt_two
  · rw [bit_set _ _ _ _ (by simpa using h), coeff_one]
    by_cases h0 : i = 0
    · rw [if_pos h0.symm, if_pos h0]; rfl
    · rw [if_neg (fun e => h0 e.symm), if_neg h0]
      simp [bit, List.getElem?_replicate, hi]

theorem berelekamp_massey_run {bits : List Nat} (hb : Bits bits) (h0 : bits ≠ []) :
    Ok (berelekamp_massey bits) fun r => ∃ c C, Holds c bits.length C ∧ r.2 = slice c 0 r.1 ∧ Gen (ser bits) C r.1 bits.length ∧
      (r.1 ≤ bits.length) ∧ ∀ D L, Gen (ser bits) D L bits.length → r.1 ≤ L := by
  have hl : 0 < bits.length := List.length_pos_of_ne_nil h0
  unfold berelekamp_massey
  rw [put_ok _ (by simpa using hl), C_pure_bind, C_pure_bind]
  have hi := bit_init hl
  refine Ok.bind (P := Inv bits bits.length) (Ok.forUp (P := Inv bits) (Nat.zero_le _) ?_ ?_ fun s h => h) ?_
  · exact ⟨1, 1, 0, 0, by simp, rfl, le_refl _, hi, hi, ⟨by simp, fun i hi => by rw [coeff_one, if_neg (by simp at hi; omega)],
      fun j _ h => absurd h (by omega)⟩, ⟨by simp, fun i hi => by rw [coeff_one, if_neg (by omega)], fun j _ h => absurd h (by omega)⟩,
      fun h => absurd h (by omega), fun D L _ => Nat.zero_le _⟩
  · intro N s _ hN h
    refine Ok.bind (discrepancy_run hb h hN) ?_
    rintro d ⟨hd, hd'⟩
    obtain ⟨C, B, p, K, g1, g2, g3, g4, g5, g6, g7, g8, g9⟩ := h
    have e := hd' C g4 g6
    by_cases hz : d = 0
    · rw [if_neg (by simpa using hz), Ok.pure_iff]
      refine ⟨C, B, p, K, g1, g2, by omega, g4, g5, ⟨g6.zero, g6.deg, fun j h1 h2 => ?_⟩, g7, g8,
        fun D L hD => g9 D L (hD.le (by omega))⟩
      by_cases hj : j = N
      · rw [hj, ← e, hz, Nat.cast_zero]
      · exact g6.lfsr j h1 (by omega)
    · rw [if_pos hz]
      refine adjust_run g1 g2 g3 hN g4 g5 g6 g7 g8 g9 (e.symm.trans ?_)
      apply zmod2_one
      rw [Ne, cast_eq_zero hd]
      exact hz
  · rintro s ⟨C, B, p, K, g1, g2, g3, g4, g5, g6, g7, g8, g9⟩
    rw [Ok.pure_iff]
    exact ⟨s.c, C, g4, rfl, g6, by simp only; omega, g9⟩

/-- The counter for a block of linear complexity `L`: below 254, 254, …, 258, above 258. -/
def lcClass (L : Nat) : Nat := min 6 (L - 253)

theorem ticket_eq (L : Nat) (e : ℚ) (h0 : 0 ≤ e) (h1 : e ≤ 1 / 4) : ticket (L - 256 + e) = lcClass L := by
  have hc : L ≤ 253 ∨ L = 254 ∨ L = 255 ∨ L = 256 ∨ L = 257 ∨ L = 258 ∨ 259 ≤ L := by omega
  rcases hc with h | rfl | rfl | rfl | rfl | rfl | h
  · have h' : (L : ℚ) ≤ 253 := by exact_mod_cast h
    rw [ticket, if_pos (by linarith), lcClass]
    omega
  · rw [ticket, if_neg (by norm_num; linarith), if_pos (by norm_num; linarith)]; rfl
  · rw [ticket, if_neg (by norm_num; linarith), if_neg (by norm_num; linarith), if_pos (by norm_num; linarith)]; rfl
  · rw [ticket, if_neg (by norm_num; linarith), if_neg (by norm_num; linarith), if_neg (by norm_num; linarith),
      if_pos (by norm_num; linarith)]; rfl
  · rw [ticket, if_neg (by norm_num; linarith), if_neg (by norm_num; linarith), if_neg (by norm_num; linarith),
      if_neg (by norm_num; linarith), if_pos (by norm_num; linarith)]; rfl
  · rw [ticket, if_neg (by norm_num; linarith), if_neg (by norm_num; linarith), if_neg (by norm_num; linarith),
      if_neg (by norm_num; linarith), if_neg (by norm_num; linarith), if_pos (by norm_num; linarith)]; rfl
  · have h' : (259 : ℚ) ≤ L := by exact_mod_cast h
    rw [ticket, if_neg (by linarith), if_neg (by linarith), if_neg (by linarith), if_neg (by linarith), if_neg (by linarith),
      if_neg (by linarith), lcClass]
    omega

theorem mu_512 : ∃ e : ℚ, 0 ≤ e ∧ e ≤ 1 / 4 ∧ mu 512 = 256 + 2 / 9 - e := by
  have h : (2 : ℚ) ^ 10 ≤ 2 ^ 512 := pow_le_pow_right₀ (by norm_num) (by norm_num)
  refine ⟨(512 / 3 + 2 / 9) / 2 ^ 512, ?_, ?_, ?_⟩
  · positivity
  · rw [div_le_iff₀ (by positivity)]
    generalize (2 : ℚ) ^ 512 = y at h ⊢
    norm_num at h
    linarith
  · unfold mu
    have : (-1 : ℚ) ^ (512 + 1) = -1 := Odd.neg_one_pow (by decide)
    rw [this]
    simp only [Nat.cast_ofNat]
    ring

theorem linear_counts_run {bits : List Nat} {N : Nat} (f : Nat → Nat)
    (h : ∀ i, i < N → ∃ poly, berelekamp_massey (slice bits (i * 512) ((i + 1) * 512)) = .ok (f i, poly)) :
    Ok (linear_counts bits 512 N) fun v => v.length = 7 ∧
      ∀ k, k < 7 → v[k]?.getD 0 = (List.range N).countP fun i => lcClass (f i) == k := by
  obtain ⟨e, h0, h1, hm⟩ := mu_512
  unfold linear_counts
  rw [build_run N f, C_pure_bind, build_run N (fun i => (f i : ℚ) - 256 + e), C_pure_bind]
  · refine (count_run ticket _ _ fun t ht => ?_).mono ?_
    · obtain ⟨i, _, rfl⟩ := List.mem_map.1 ht
      rw [ticket_eq _ _ h0 h1, lcClass]
      simp only [List.length_cons, List.length_nil]
      omega
    · rintro r ⟨g1, g2⟩
      refine ⟨g1, fun k hk => ?_⟩
      rw [g2 k hk, List.countP_map]
      have : ([0, 0, 0, 0, 0, 0, 0] : List Nat)[k]?.getD 0 = 0 := by
        interval_cases k <;> rfl
      rw [this, Nat.zero_add]
      refine List.countP_congr fun i _ => ?_
      rw [Function.comp_apply, ticket_eq _ _ h0 h1]
  · intro i l hi _
    rw [ix_getD 0 (by simpa using hi), C_pure_bind, hm]
    have : ((List.range N).map f)[i]?.getD 0 = f i := by simp [List.getElem?_eq_getElem, hi]
    rw [this]
    have h1 : (-1 : ℚ) ^ 512 = 1 := Even.neg_one_pow (by decide)
    rw [C_pure_eq, h1]
    congr 3
    ring
  · intro i l hi _
    obtain ⟨poly, e⟩ := h i hi
    simp only [e]
    rfl

end WB.sp
