import Verif.Proof.GFPoly
import Verif.Proof.AESInit
import Verif.Proof.SM4Box

/-!
# C48 — field arithmetic and S-boxes of the bundled ciphers
-/
namespace WB
open Polynomial

/-- C48: `gMul` multiplies bytes as polynomials over GF(2) modulo `X^8 + X^4 + X^3 + X + 1`. -/
theorem C48_gMul (a b : BitVec 8) :
    ∃ c, aes.gMul a b = .ok c ∧ poly c = (poly a * poly b) %ₘ (X ^ 8 + X ^ 4 + X ^ 3 + X + 1) := by
  refine ⟨_, aes.gMul_eq a b, ?_⟩
  rw [poly_gfMul]
  congr 1
  have : poly 0x1b = X ^ 4 + X ^ 3 + X + 1 := by
    unfold poly
    rw [Fin.sum_univ_eight]
    simp [BitVec.getLsbD, Nat.testBit, Nat.shiftRight_eq_div_pow]
    ring
  rw [this]
  ring

/-- C48: different bytes are different polynomials, all of degree less than 8, so `C48_gMul` determines the product. -/
theorem C48_poly_faithful : Function.Injective poly ∧ ∀ a, (poly a).degree < 8 := ⟨poly_injective, degree_poly⟩

theorem poly_one : poly 1 = 1 := by
  unfold poly
  rw [Fin.sum_univ_eight]
  simp [BitVec.getLsbD, Nat.testBit, Nat.shiftRight_eq_div_pow]

theorem gfInv_aes : ∀ x : BitVec 8, (x = 0 → gfInv 0x1b x = 0) ∧ (x ≠ 0 → gfMul 0x1b x (gfInv 0x1b x) = 1) := by
  decide +kernel

theorem gfInv_sm4 : ∀ x : BitVec 8, (x = 0 → gfInv 0xf5 x = 0) ∧ (x ≠ 0 → gfMul 0xf5 x (gfInv 0xf5 x) = 1) := by
  decide +kernel

/-- C48: entry `x` of the AES S-box table is the affine image of the inverse of `x` (of `0` for `x = 0`). -/
theorem C48_aes_sbox (x : BitVec 8) :
    ∃ y, rd aes.SBox x.toNat = .ok (circulant 0xf1 y ^^^ 0x63) ∧ (x = 0 → y = 0) ∧
      (x ≠ 0 → (poly x * poly y) %ₘ (X ^ 8 + poly 0x1b) = 1) := by
  refine ⟨gfInv 0x1b x, ?_, (gfInv_aes x).1, fun h => ?_⟩
  · exact aes.rd_SBox x
  · rw [← poly_gfMul, (gfInv_aes x).2 h, poly_one]

/-- C48: the same for SM4, whose S-box has an affine map on both sides of the inversion. -/
theorem C48_sm4_sbox (x : BitVec 8) :
    ∃ y, sm4.sm4Sbox x = .ok (circulant 0xa7 y ^^^ 0xd3) ∧ (circulant 0xa7 x ^^^ 0xd3 = 0 → y = 0) ∧
      (circulant 0xa7 x ^^^ 0xd3 ≠ 0 → (poly (circulant 0xa7 x ^^^ 0xd3) * poly y) %ₘ (X ^ 8 + poly 0xf5) = 1) := by
  refine ⟨gfInv 0xf5 (circulant 0xa7 x ^^^ 0xd3), sm4.sm4Sbox_eq x, (gfInv_sm4 _).1, fun h => ?_⟩
  rw [← poly_gfMul, (gfInv_sm4 _).2 h, poly_one]

/-- C48: `initialize_aes_sbox` ends after exactly 255 iterations of its loop, for every prior contents of the array. -/
theorem C48_initialize_terminates (fuel : Nat) (sbox : Vector (BitVec 8) 256) :
    (∃ s, aes.initialize_aes_sbox fuel sbox = .ok s) ↔ 255 ≤ fuel := by
  constructor
  · rintro ⟨s, h⟩
    by_contra hf
    rw [aes.initialize_aes_sbox_short fuel (by omega)] at h
    cases h
  · intro hf
    obtain ⟨s, h, -⟩ := aes.initialize_aes_sbox_ok fuel hf sbox
    exact ⟨s, h⟩

/-- C48: the array computed by `initialize_aes_sbox` is the table in `aes.h`. -/
theorem C48_initialize_eq_table (fuel : Nat) (hf : 255 ≤ fuel) (sbox : Vector (BitVec 8) 256) :
    aes.initialize_aes_sbox fuel sbox = .ok aes.SBox := by
  obtain ⟨s, h, hs⟩ := aes.initialize_aes_sbox_ok fuel hf sbox
  rw [h]
  congr 1
  apply Vector.ext
  intro i hi
  have e := hs (BitVec.ofNat 8 i)
  have t := aes.sbox_table (BitVec.ofNat 8 i)
  have hn : (BitVec.ofNat 8 i).toNat = i := by rw [BitVec.toNat_ofNat]; omega
  rw [← t] at e
  simp only [hn] at e
  rw [← e, getElem!_pos s i hi]

/-- The product `{57} · {83} = {c1}` of FIPS 197, section 4.2. -/
example : aes.gMul 0x57 0x83 = .ok 0xc1 := by decide +kernel
/-- A non-zero entry with its inverse: `{53} · {ca} = {01}` and the S-box sends `{53}` to `{ed}` (FIPS 197, 5.1.1). -/
example : aes.gMul 0x53 0xca = .ok 1 ∧ rd aes.SBox 0x53 = .ok 0xed ∧ circulant 0xf1 0xca ^^^ 0x63 = 0xed := by
  decide +kernel
example : (255 : Nat) ≤ 300 := by decide

end WB
