import Verif.Proof.Inj
import Verif.Prop.Examples

/-!
# C12 — invertibility test
-/
namespace WB
open Matrix

set_option maxRecDepth 20000

open Classical in
/-- C12: `isinvertM4` decides invertibility over GF(2). -/
theorem C12_isinvertM4 (A : M4) (hA : CleanM4 A) :
    isinvertM4 A = .ok (if IsUnit (mat4 A) then 1 else 0) := by
  obtain ⟨r, hr, h01, h1, h2⟩ := isinvertM4_ok A
  rw [hr]
  refine congrArg Except.ok ?_
  by_cases h : IsUnit (mat4 A)
  · rw [if_pos h]; exact h2 hA ((isUnit_iff_det _).1 h)
  · rw [if_neg h]
    exact h01.resolve_right fun e => h ((isUnit_iff_det _).2 (h1 e))

example : isinvertM4 exA4 = .ok 1 := by decide +kernel
example : isinvertM4 #v[0xa, 0x6, 0x3, 0x6] = .ok 0 := by decide +kernel

example : CleanM4 exA4 := exA4_clean

/-- C12: for `n = 4` the answer 1 is right for every matrix, clean or not. -/
theorem C12_isinvertM4_sound (A : M4) (h : isinvertM4 A = .ok 1) : IsUnit (mat4 A) := by
  obtain ⟨r, hr, _, h1, _⟩ := isinvertM4_ok A
  rw [hr] at h
  exact (isUnit_iff_det _).2 (h1 (Except.ok.inj h))

example : isinvertM4 exA4 = .ok 1 := by decide +kernel

open Classical in
/-- C12: `isinvertM8` decides invertibility over GF(2). -/
theorem C12_isinvertM8 (A : M8) :
    isinvertM8 A = .ok (if IsUnit (mat8 A) then 1 else 0) := by
  obtain ⟨r, hr, h01, h1, h2⟩ := isinvertM8_ok A
  rw [hr]
  refine congrArg Except.ok ?_
  by_cases h : IsUnit (mat8 A)
  · rw [if_pos h]; exact h2 ((isUnit_iff_det _).1 h)
  · rw [if_neg h]
    exact h01.resolve_right fun e => h ((isUnit_iff_det _).2 (h1 e))

example : isinvertM8 exA8 = .ok 1 := by decide +kernel
example : isinvertM8 #v[0xa0, 0x60, 0x30, 0x18, 0xc, 0x6, 0x3, 0x60] = .ok 0 := by decide +kernel

open Classical in
/-- C12: `isinvertM16` decides invertibility over GF(2). -/
theorem C12_isinvertM16 (A : M16) :
    isinvertM16 A = .ok (if IsUnit (mat16 A) then 1 else 0) := by
  obtain ⟨r, hr, h01, h1, h2⟩ := isinvertM16_ok A
  rw [hr]
  refine congrArg Except.ok ?_
  by_cases h : IsUnit (mat16 A)
  · rw [if_pos h]; exact h2 ((isUnit_iff_det _).1 h)
  · rw [if_neg h]
    exact h01.resolve_right fun e => h ((isUnit_iff_det _).2 (h1 e))

example : isinvertM16 exA16 = .ok 1 := by decide +kernel
example : isinvertM16 #v[0xa000, 0x6000, 0x3000, 0x1800, 0xc00, 0x600, 0x300, 0x180, 0xc0, 0x60, 0x30, 0x18, 0xc, 0x6, 0x3, 0x6000] = .ok 0 := by decide +kernel

open Classical in
/-- C12: `isinvertM32` decides invertibility over GF(2). -/
theorem C12_isinvertM32 (A : M32) :
    isinvertM32 A = .ok (if IsUnit (mat32 A) then 1 else 0) := by
  obtain ⟨r, hr, h01, h1, h2⟩ := isinvertM32_ok A
  rw [hr]
  refine congrArg Except.ok ?_
  by_cases h : IsUnit (mat32 A)
  · rw [if_pos h]; exact h2 ((isUnit_iff_det _).1 h)
  · rw [if_neg h]
    exact h01.resolve_right fun e => h ((isUnit_iff_det _).2 (h1 e))

example : isinvertM32 exA32 = .ok 1 := by decide +kernel
example : isinvertM32 #v[0xa0000000, 0x60000000, 0x30000000, 0x18000000, 0xc000000, 0x6000000, 0x3000000, 0x1800000, 0xc00000, 0x600000, 0x300000, 0x180000, 0xc0000, 0x60000, 0x30000, 0x18000, 0xc000, 0x6000, 0x3000, 0x1800, 0xc00, 0x600, 0x300, 0x180, 0xc0, 0x60, 0x30, 0x18, 0xc, 0x6, 0x3, 0x60000000] = .ok 0 := by decide +kernel

open Classical in
/-- C12: `isinvertM64` decides invertibility over GF(2). -/
theorem C12_isinvertM64 (A : M64) :
    isinvertM64 A = .ok (if IsUnit (mat64 A) then 1 else 0) := by
  obtain ⟨r, hr, h01, h1, h2⟩ := isinvertM64_ok A
  rw [hr]
  refine congrArg Except.ok ?_
  by_cases h : IsUnit (mat64 A)
  · rw [if_pos h]; exact h2 ((isUnit_iff_det _).1 h)
  · rw [if_neg h]
    exact h01.resolve_right fun e => h ((isUnit_iff_det _).2 (h1 e))

example : isinvertM64 exA64 = .ok 1 := by decide +kernel
example : isinvertM64 #v[0xa000000000000000, 0x6000000000000000, 0x3000000000000000, 0x1800000000000000, 0xc00000000000000, 0x600000000000000, 0x300000000000000, 0x180000000000000, 0xc0000000000000, 0x60000000000000, 0x30000000000000, 0x18000000000000, 0xc000000000000, 0x6000000000000, 0x3000000000000, 0x1800000000000, 0xc00000000000, 0x600000000000, 0x300000000000, 0x180000000000, 0xc0000000000, 0x60000000000, 0x30000000000, 0x18000000000, 0xc000000000, 0x6000000000, 0x3000000000, 0x1800000000, 0xc00000000, 0x600000000, 0x300000000, 0x180000000, 0xc0000000, 0x60000000, 0x30000000, 0x18000000, 0xc000000, 0x6000000, 0x3000000, 0x1800000, 0xc00000, 0x600000, 0x300000, 0x180000, 0xc0000, 0x60000, 0x30000, 0x18000, 0xc000, 0x6000, 0x3000, 0x1800, 0xc00, 0x600, 0x300, 0x180, 0xc0, 0x60, 0x30, 0x18, 0xc, 0x6, 0x3, 0x6000000000000000] = .ok 0 := by decide +kernel

open Classical in
/-- C12: `isinvertM128` decides invertibility over GF(2). -/
theorem C12_isinvertM128 (A : M128) :
    isinvertM128 A = .ok (if IsUnit (mat128 A) then 1 else 0) := by
  obtain ⟨r, hr, h01, h1, h2⟩ := isinvertM128_ok A
  rw [hr]
  refine congrArg Except.ok ?_
  by_cases h : IsUnit (mat128 A)
  · rw [if_pos h]; exact h2 ((isUnit_iff_det _).1 h)
  · rw [if_neg h]
    exact h01.resolve_right fun e => h ((isUnit_iff_det _).2 (h1 e))

example : ∃ A, identityM128 exB128 = .ok A ∧ isinvertM128 A = .ok 1 := by
  obtain ⟨A, hA, h⟩ := identityM128_ok exB128
  refine ⟨A, hA, ?_⟩
  rw [C12_isinvertM128, if_pos]
  rw [show mat128 A = 1 from h]; exact isUnit_one
example : isinvertM128 (Vector.replicate 128 (Vector.replicate 2 0)) = .ok 0 := by decide +kernel

open Classical in
/-- C12: `isinvertM256` decides invertibility over GF(2). -/
theorem C12_isinvertM256 (A : M256) :
    isinvertM256 A = .ok (if IsUnit (mat256 A) then 1 else 0) := by
  obtain ⟨r, hr, h01, h1, h2⟩ := isinvertM256_ok A
  rw [hr]
  refine congrArg Except.ok ?_
  by_cases h : IsUnit (mat256 A)
  · rw [if_pos h]; exact h2 ((isUnit_iff_det _).1 h)
  · rw [if_neg h]
    exact h01.resolve_right fun e => h ((isUnit_iff_det _).2 (h1 e))

example : ∃ A, identityM256 exB256 = .ok A ∧ isinvertM256 A = .ok 1 := by
  obtain ⟨A, hA, h⟩ := identityM256_ok exB256
  refine ⟨A, hA, ?_⟩
  rw [C12_isinvertM256, if_pos]
  rw [show mat256 A = 1 from h]; exact isUnit_one
example : isinvertM256 (Vector.replicate 256 (Vector.replicate 4 0)) = .ok 0 := by decide +kernel

end WB
