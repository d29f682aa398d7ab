import Verif.Proof.ComGen
import Mathlib.NumberTheory.LegendreSymbol.Basic
import Mathlib.Data.Nat.Prime.Basic

/-!
# The random number generator (helper lemmas)
-/
namespace WB

/-! ## The prime -/

def qp : Nat := 4294967291

/-- None of `b, b + 2, ..., b + 2 (n - 1)` divides the prime. -/
def noDiv (b : Nat) : Nat → Bool
  | 0 => true
  | n + 1 => if Nat.beq (Nat.mod 4294967291 (Nat.add b (Nat.add n n))) 0 then false else noDiv b n

def noDivs : Nat → Bool
  | 0 => true
  | n + 1 => (noDiv (Nat.add 3 (Nat.mul 256 n)) 128).and (noDivs n)

theorem noDivs_256 : noDivs 256 = true := by decide +kernel

theorem noDiv_spec (b : Nat) : ∀ n, noDiv b n = true → ∀ k < n, qp % (b + 2 * k) ≠ 0
  | 0, _, k, hk => absurd hk (Nat.not_lt_zero k)
  | n + 1, h, k, hk => by
    unfold noDiv at h
    split at h
    · exact absurd h (by simp)
    · rename_i h0
      rcases Nat.lt_succ_iff_lt_or_eq.1 hk with h1 | rfl
      · exact noDiv_spec b n h k h1
      · intro e
        refine h0 ?_
        rw [two_mul] at e
        rw [Nat.beq_eq]; exact e

theorem noDivs_spec : ∀ n, noDivs n = true → ∀ k < n, noDiv (3 + 256 * k) 128 = true
  | 0, _, k, hk => absurd hk (Nat.not_lt_zero k)
  | n + 1, h, k, hk => by
    unfold noDivs at h
    rw [Bool.and_eq_true] at h
    rcases Nat.lt_succ_iff_lt_or_eq.1 hk with h1 | rfl
    · exact noDivs_spec n h.2 k h1
    · exact h.1

instance qp_prime : Fact (Nat.Prime qp) := ⟨by
  rw [Nat.prime_def_le_sqrt]
  refine ⟨by decide, fun m hm hs hd => ?_⟩
  have h1 : m ≤ 65535 := by
    refine hs.trans (Nat.lt_succ_iff.1 (Nat.sqrt_lt'.2 (by unfold qp; norm_num)))
  have h0 := Nat.mod_eq_zero_of_dvd hd
  by_cases hodd : m % 2 = 0
  · obtain ⟨k, hk⟩ := hd
    have : qp % 2 = 0 := by
      rw [hk, Nat.mul_mod, hodd, Nat.zero_mul]
    exact absurd this (by decide)
  · have := noDiv_spec _ _ (noDivs_spec _ noDivs_256 ((m - 3) / 256) (by omega))
      ((m - 3) % 256 / 2) (by omega)
    rw [show 3 + 256 * ((m - 3) / 256) + 2 * ((m - 3) % 256 / 2) = m by omega] at this
    exact this h0⟩

/-- `permuteQPR` on numbers. -/
def qpr (x : Nat) : Nat :=
  if qp ≤ x then x else if x ≤ qp / 2 then x * x % qp else qp - x * x % qp

theorem permuteQPR_toNat (x : BitVec 32) : (permuteQPR x).toNat = qpr x.toNat := by
  have hx := x.isLt
  unfold permuteQPR qpr
  simp only [BitVec.le_def, BitVec.toNat_ofNat]
  have e1 : 4294967291 % 2 ^ 32 = qp := rfl
  rw [e1]
  by_cases h : qp ≤ x.toNat
  · rw [if_pos h, if_pos h]
  · rw [if_neg h, if_neg h]
    have hq : x.toNat < 2 ^ 32 := hx
    have hmul : x.toNat * x.toNat < 2 ^ 64 := by
      have := Nat.mul_lt_mul'' hq hq
      norm_num at this ⊢; omega
    have hr : (((x.setWidth 64 * x.setWidth 64).umod ((4294967291#32).setWidth 64)).setWidth
        32).toNat = x.toNat * x.toNat % qp := by
      simp only [BitVec.toNat_setWidth, BitVec.umod_eq, BitVec.toNat_umod, BitVec.toNat_mul]
      rw [Nat.mod_eq_of_lt (show x.toNat < 2 ^ 64 by omega), Nat.mod_eq_of_lt hmul]
      have : (4294967291#32).toNat % 2 ^ 64 = qp := rfl
      rw [this]
      exact Nat.mod_eq_of_lt ((Nat.mod_lt _ (by decide)).trans (by decide))
    have hd : (BitVec.udiv 4294967291#32 2#32).toNat = qp / 2 := by decide
    rw [hd]
    by_cases h2 : x.toNat ≤ qp / 2
    · rw [if_pos h2, if_pos h2, hr]
    · rw [if_neg h2, if_neg h2, BitVec.toNat_sub, hr]
      have h3 : x.toNat * x.toNat % qp < qp := Nat.mod_lt _ (by decide)
      have e3 : (4294967291#32).toNat = qp := rfl
      rw [e3]
      have e4 : qp = 4294967291 := rfl
      have hne : x.toNat * x.toNat % qp ≠ 0 := by
        intro h0
        have hdv := Nat.dvd_of_mod_eq_zero h0
        rcases (Nat.Prime.dvd_mul qp_prime.out).1 hdv with hh | hh <;>
        · have := Nat.le_of_dvd (by omega) hh
          omega
      omega

theorem qpr_lt {x : Nat} (h : x < qp) : qpr x < qp := by
  have h3 : x * x % qp < qp := Nat.mod_lt _ (by decide)
  unfold qpr
  rw [if_neg (by omega)]
  split
  · exact h3
  · rename_i h2
    have hne : x * x % qp ≠ 0 := by
      intro h0
      have hdv := Nat.dvd_of_mod_eq_zero h0
      rcases (Nat.Prime.dvd_mul qp_prime.out).1 hdv with hh | hh <;>
      · have := Nat.le_of_dvd (by omega) hh
        omega
    omega

theorem natCast_eq_iff {x y : Nat} (hx : x < qp) (hy : y < qp) :
    ((x : ZMod qp) = y) ↔ x = y := by
  rw [ZMod.natCast_eq_natCast_iff']
  rw [Nat.mod_eq_of_lt hx, Nat.mod_eq_of_lt hy]

theorem qpr_cast {x : Nat} (h : x < qp) :
    (qpr x : ZMod qp) = if x ≤ qp / 2 then (x : ZMod qp) * x else - ((x : ZMod qp) * x) := by
  unfold qpr
  rw [if_neg (by omega)]
  have h3 : x * x % qp < qp := Nat.mod_lt _ (by decide)
  split
  · rw [ZMod.natCast_mod]; push_cast; rfl
  · rw [Nat.cast_sub h3.le, ZMod.natCast_mod, ZMod.natCast_self]; push_cast; ring

theorem neg_one_not_square : ¬ IsSquare (-1 : ZMod qp) := by
  rw [ZMod.exists_sq_eq_neg_one_iff]
  decide

theorem qpr_inj_lt {x y : Nat} (hx : x < qp) (hy : y < qp) (h : qpr x = qpr y) : x = y := by
  have hq : qp = 4294967291 := rfl
  have hc := congrArg (Nat.cast : Nat → ZMod qp) h
  rw [qpr_cast hx, qpr_cast hy] at hc
  have sq : (x : ZMod qp) * x = (y : ZMod qp) * y → x = y ∨ x + y = 0 ∨ x + y = qp := by
    intro e
    rw [mul_self_eq_mul_self_iff] at e
    rcases e with e | e
    · exact .inl ((natCast_eq_iff hx hy).1 e)
    · right
      have : ((x + y : Nat) : ZMod qp) = 0 := by push_cast; rw [e]; ring
      rw [ZMod.natCast_eq_zero_iff] at this
      obtain ⟨k, hk⟩ := this
      have : k < 2 := by
        by_contra hk2
        have : qp * 2 ≤ qp * k := Nat.mul_le_mul_left _ (by omega)
        omega
      interval_cases k <;> omega
  have cross : ∀ {x y : Nat}, y < qp → qp / 2 < y →
      (x : ZMod qp) * x ≠ - ((y : ZMod qp) * y) := by
    intro x y hy h2 e
    have hy0 : (y : ZMod qp) ≠ 0 := by
      intro h0
      rw [ZMod.natCast_eq_zero_iff] at h0
      have := Nat.le_of_dvd (by omega) h0
      omega
    refine neg_one_not_square ⟨x * (y : ZMod qp)⁻¹, ?_⟩
    rw [show (x : ZMod qp) * (y : ZMod qp)⁻¹ * (x * (y : ZMod qp)⁻¹) =
      (x * x) * ((y : ZMod qp)⁻¹ * (y : ZMod qp)⁻¹) by ring, e]
    field_simp
  by_cases h1 : x ≤ qp / 2 <;> by_cases h2 : y ≤ qp / 2
  · rw [if_pos h1, if_pos h2] at hc
    rcases sq hc with e | e | e <;> omega
  · rw [if_pos h1, if_neg h2] at hc
    exact absurd hc (cross hy (by omega))
  · rw [if_neg h1, if_pos h2] at hc
    exact absurd hc.symm (cross hx (by omega))
  · rw [if_neg h1, if_neg h2] at hc
    rcases sq (neg_injective hc) with e | e | e <;> omega

theorem permuteQPR_inj {x y : BitVec 32} (h : permuteQPR x = permuteQPR y) : x = y := by
  have h1 := congrArg BitVec.toNat h
  rw [permuteQPR_toNat, permuteQPR_toNat] at h1
  apply BitVec.eq_of_toNat_eq
  by_cases hx : x.toNat < qp <;> by_cases hy : y.toNat < qp
  · exact qpr_inj_lt hx hy h1
  · have := qpr_lt hx
    rw [h1] at this
    unfold qpr at this
    rw [if_pos (by omega)] at this
    omega
  · have := qpr_lt hy
    rw [← h1] at this
    unfold qpr at this
    rw [if_pos (by omega)] at this
    omega
  · unfold qpr at h1
    rwa [if_pos (by omega), if_pos (by omega)] at h1

/-! ## The stream -/

/-- The value drawn with the index `i` and the offset `o`. -/
def draw (o i : BitVec 32) : BitVec 32 :=
  permuteQPR ((permuteQPR i + o) ^^^ 0x5bf03635#32)

theorem draw_inj {o i j : BitVec 32} (h : draw o i = draw o j) : i = j := by
  have h1 := permuteQPR_inj h
  have h2 : permuteQPR i + o = permuteQPR j + o := by
    have := congrArg (· ^^^ 0x5bf03635#32) h1
    simpa [BitVec.xor_assoc] using this
  exact permuteQPR_inj (by simpa using h2)

theorem bv_surj {n : Nat} {f : BitVec n → BitVec n} (h : ∀ x y, f x = f y → x = y) (v : BitVec n) :
    ∃ x, f x = v := by
  have : Finite (BitVec n) :=
    Finite.of_injective (fun x : BitVec n => x.toFin) fun x y e => BitVec.eq_of_toFin_eq e
  exact Finite.surjective_of_injective (fun x y => h x y) v

/-- Index after seeding. -/
def seedIdx (s : BitVec 32) : BitVec 32 := permuteQPR (permuteQPR s + 0x682f0161#32)
/-- Offset after seeding. -/
def seedOff (s : BitVec 32) : BitVec 32 := permuteQPR (permuteQPR (s + 1#32) + 0x46790905#32)

theorem qq_inj (c x y : BitVec 32) (h : permuteQPR (permuteQPR x + c) = permuteQPR (permuteQPR y + c)) :
    x = y := permuteQPR_inj (by simpa using permuteQPR_inj h)

theorem seedIdx_inj (s t : BitVec 32) (h : seedIdx s = seedIdx t) : s = t := qq_inj _ _ _ h

theorem seedOff_inj (s t : BitVec 32) (h : seedOff s = seedOff t) : s = t := by
  have := qq_inj _ _ _ h
  simpa using this

theorem InitRandom_run (s : BitVec 32) (w : World) : InitRandom s w =
    .ok ((), { w with m_index := seedIdx s, m_intermediateOffset := seedOff s }) := rfl

/-- The value with which `reseed` seeds the generator. -/
def seedOf (w : World) : BitVec 32 := w.randseed ^^^ w.clock w.now

theorem reseed_run (w : World) : reseed w =
    .ok ((), { w with
      randseed := w.randseed + 1#32, now := w.now + 1
      m_index := seedIdx (seedOf w), m_intermediateOffset := seedOff (seedOf w) }) := rfl

theorem cus_random_run (w : World) :
    cus_random w = .ok (draw w.m_intermediateOffset w.m_index,
      { w with m_index := w.m_index + 1#32 }) := rfl

attribute [irreducible] seedIdx seedOff draw

end WB
