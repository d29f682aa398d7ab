import Verif.Proof.Inj
import Verif.Prop.Examples

/-!
# C14 — the inverse of a singular matrix is silent
-/
namespace WB
open Matrix

set_option maxRecDepth 20000

/-- C14: `invsM4` of a singular matrix silently stores an invertible matrix that is no inverse of it,
on either side. -/
theorem C14_invsM4_singular (A B0 : M4) (hA : ¬ IsUnit (mat4 A)) :
    ∃ B, invsM4 A B0 = .ok B ∧ IsUnit (mat4 B) ∧ mat4 A * mat4 B ≠ 1 ∧
      mat4 B * mat4 A ≠ 1 := by
  obtain ⟨B, hB, hd, _⟩ := invsM4_ok A B0
  refine ⟨B, hB, (isUnit_iff_det _).2 hd, fun h => hA ?_, fun h => hA ?_⟩
  · exact ⟨⟨_, _, h, mat_comm h⟩, rfl⟩
  · exact ⟨⟨_, _, mat_comm h, h⟩, rfl⟩

example : ∃ A : M4, ¬ IsUnit (mat4 A) := by
  refine ⟨Vector.replicate 4 0, ?_⟩
  rw [show mat4 _ = 0 from mat_zero 4]
  exact not_isUnit_zero
example : isinvertM4 #v[0xa, 0x6, 0x3, 0x6] = .ok 0 ∧
    ∃ B, invsM4 #v[0xa, 0x6, 0x3, 0x6] exB4 = .ok B ∧ isinvertM4 B = .ok 1 := by
  refine ⟨by decide +kernel, ?_⟩
  exact ⟨((invsM4 #v[0xa, 0x6, 0x3, 0x6] exB4).toOption.getD exB4), by decide +kernel, by decide +kernel⟩

/-- C14: `invsM8` of a singular matrix silently stores an invertible matrix that is no inverse of it,
on either side. -/
theorem C14_invsM8_singular (A B0 : M8) (hA : ¬ IsUnit (mat8 A)) :
    ∃ B, invsM8 A B0 = .ok B ∧ IsUnit (mat8 B) ∧ mat8 A * mat8 B ≠ 1 ∧
      mat8 B * mat8 A ≠ 1 := by
  obtain ⟨B, hB, hd, _⟩ := invsM8_ok A B0
  refine ⟨B, hB, (isUnit_iff_det _).2 hd, fun h => hA ?_, fun h => hA ?_⟩
  · exact ⟨⟨_, _, h, mat_comm h⟩, rfl⟩
  · exact ⟨⟨_, _, mat_comm h, h⟩, rfl⟩

example : ∃ A : M8, ¬ IsUnit (mat8 A) := by
  refine ⟨Vector.replicate 8 0, ?_⟩
  rw [show mat8 _ = 0 from mat_zero 8]
  exact not_isUnit_zero
example : isinvertM8 #v[0xa0, 0x60, 0x30, 0x18, 0xc, 0x6, 0x3, 0x60] = .ok 0 ∧
    ∃ B, invsM8 #v[0xa0, 0x60, 0x30, 0x18, 0xc, 0x6, 0x3, 0x60] exB8 = .ok B ∧ isinvertM8 B = .ok 1 := by
  refine ⟨by decide +kernel, ?_⟩
  exact ⟨((invsM8 #v[0xa0, 0x60, 0x30, 0x18, 0xc, 0x6, 0x3, 0x60] exB8).toOption.getD exB8), by decide +kernel, by decide +kernel⟩

/-- C14: `invsM16` of a singular matrix silently stores an invertible matrix that is no inverse of it,
on either side. -/
theorem C14_invsM16_singular (A B0 : M16) (hA : ¬ IsUnit (mat16 A)) :
    ∃ B, invsM16 A B0 = .ok B ∧ IsUnit (mat16 B) ∧ mat16 A * mat16 B ≠ 1 ∧
      mat16 B * mat16 A ≠ 1 := by
  obtain ⟨B, hB, hd, _⟩ := invsM16_ok A B0
  refine ⟨B, hB, (isUnit_iff_det _).2 hd, fun h => hA ?_, fun h => hA ?_⟩
  · exact ⟨⟨_, _, h, mat_comm h⟩, rfl⟩
  · exact ⟨⟨_, _, mat_comm h, h⟩, rfl⟩

example : ∃ A : M16, ¬ IsUnit (mat16 A) := by
  refine ⟨Vector.replicate 16 0, ?_⟩
  rw [show mat16 _ = 0 from mat_zero 16]
  exact not_isUnit_zero
example : isinvertM16 #v[0xa000, 0x6000, 0x3000, 0x1800, 0xc00, 0x600, 0x300, 0x180, 0xc0, 0x60, 0x30, 0x18, 0xc, 0x6, 0x3, 0x6000] = .ok 0 ∧
    ∃ B, invsM16 #v[0xa000, 0x6000, 0x3000, 0x1800, 0xc00, 0x600, 0x300, 0x180, 0xc0, 0x60, 0x30, 0x18, 0xc, 0x6, 0x3, 0x6000] exB16 = .ok B ∧ isinvertM16 B = .ok 1 := by
  refine ⟨by decide +kernel, ?_⟩
  exact ⟨((invsM16 #v[0xa000, 0x6000, 0x3000, 0x1800, 0xc00, 0x600, 0x300, 0x180, 0xc0, 0x60, 0x30, 0x18, 0xc, 0x6, 0x3, 0x6000] exB16).toOption.getD exB16), by decide +kernel, by decide +kernel⟩

/-- C14: `invsM32` of a singular matrix silently stores an invertible matrix that is no inverse of it,
on either side. -/
theorem C14_invsM32_singular (A B0 : M32) (hA : ¬ IsUnit (mat32 A)) :
    ∃ B, invsM32 A B0 = .ok B ∧ IsUnit (mat32 B) ∧ mat32 A * mat32 B ≠ 1 ∧
      mat32 B * mat32 A ≠ 1 := by
  obtain ⟨B, hB, hd, _⟩ := invsM32_ok A B0
  refine ⟨B, hB, (isUnit_iff_det _).2 hd, fun h => hA ?_, fun h => hA ?_⟩
  · exact ⟨⟨_, _, h, mat_comm h⟩, rfl⟩
  · exact ⟨⟨_, _, mat_comm h, h⟩, rfl⟩

example : ∃ A : M32, ¬ IsUnit (mat32 A) := by
  refine ⟨Vector.replicate 32 0, ?_⟩
  rw [show mat32 _ = 0 from mat_zero 32]
  exact not_isUnit_zero
example : isinvertM32 #v[0xa0000000, 0x60000000, 0x30000000, 0x18000000, 0xc000000, 0x6000000, 0x3000000, 0x1800000, 0xc00000, 0x600000, 0x300000, 0x180000, 0xc0000, 0x60000, 0x30000, 0x18000, 0xc000, 0x6000, 0x3000, 0x1800, 0xc00, 0x600, 0x300, 0x180, 0xc0, 0x60, 0x30, 0x18, 0xc, 0x6, 0x3, 0x60000000] = .ok 0 ∧
    ∃ B, invsM32 #v[0xa0000000, 0x60000000, 0x30000000, 0x18000000, 0xc000000, 0x6000000, 0x3000000, 0x1800000, 0xc00000, 0x600000, 0x300000, 0x180000, 0xc0000, 0x60000, 0x30000, 0x18000, 0xc000, 0x6000, 0x3000, 0x1800, 0xc00, 0x600, 0x300, 0x180, 0xc0, 0x60, 0x30, 0x18, 0xc, 0x6, 0x3, 0x60000000] exB32 = .ok B ∧ isinvertM32 B = .ok 1 := by
  refine ⟨by decide +kernel, ?_⟩
  exact ⟨((invsM32 #v[0xa0000000, 0x60000000, 0x30000000, 0x18000000, 0xc000000, 0x6000000, 0x3000000, 0x1800000, 0xc00000, 0x600000, 0x300000, 0x180000, 0xc0000, 0x60000, 0x30000, 0x18000, 0xc000, 0x6000, 0x3000, 0x1800, 0xc00, 0x600, 0x300, 0x180, 0xc0, 0x60, 0x30, 0x18, 0xc, 0x6, 0x3, 0x60000000] exB32).toOption.getD exB32), by decide +kernel, by decide +kernel⟩

/-- C14: `invsM64` of a singular matrix silently stores an invertible matrix that is no inverse of it,
on either side. -/
theorem C14_invsM64_singular (A B0 : M64) (hA : ¬ IsUnit (mat64 A)) :
    ∃ B, invsM64 A B0 = .ok B ∧ IsUnit (mat64 B) ∧ mat64 A * mat64 B ≠ 1 ∧
      mat64 B * mat64 A ≠ 1 := by
  obtain ⟨B, hB, hd, _⟩ := invsM64_ok A B0
  refine ⟨B, hB, (isUnit_iff_det _).2 hd, fun h => hA ?_, fun h => hA ?_⟩
  · exact ⟨⟨_, _, h, mat_comm h⟩, rfl⟩
  · exact ⟨⟨_, _, mat_comm h, h⟩, rfl⟩

example : ∃ A : M64, ¬ IsUnit (mat64 A) := by
  refine ⟨Vector.replicate 64 0, ?_⟩
  rw [show mat64 _ = 0 from mat_zero 64]
  exact not_isUnit_zero
example : isinvertM64 #v[0xa000000000000000, 0x6000000000000000, 0x3000000000000000, 0x1800000000000000, 0xc00000000000000, 0x600000000000000, 0x300000000000000, 0x180000000000000, 0xc0000000000000, 0x60000000000000, 0x30000000000000, 0x18000000000000, 0xc000000000000, 0x6000000000000, 0x3000000000000, 0x1800000000000, 0xc00000000000, 0x600000000000, 0x300000000000, 0x180000000000, 0xc0000000000, 0x60000000000, 0x30000000000, 0x18000000000, 0xc000000000, 0x6000000000, 0x3000000000, 0x1800000000, 0xc00000000, 0x600000000, 0x300000000, 0x180000000, 0xc0000000, 0x60000000, 0x30000000, 0x18000000, 0xc000000, 0x6000000, 0x3000000, 0x1800000, 0xc00000, 0x600000, 0x300000, 0x180000, 0xc0000, 0x60000, 0x30000, 0x18000, 0xc000, 0x6000, 0x3000, 0x1800, 0xc00, 0x600, 0x300, 0x180, 0xc0, 0x60, 0x30, 0x18, 0xc, 0x6, 0x3, 0x6000000000000000] = .ok 0 ∧
    ∃ B, invsM64 #v[0xa000000000000000, 0x6000000000000000, 0x3000000000000000, 0x1800000000000000, 0xc00000000000000, 0x600000000000000, 0x300000000000000, 0x180000000000000, 0xc0000000000000, 0x60000000000000, 0x30000000000000, 0x18000000000000, 0xc000000000000, 0x6000000000000, 0x3000000000000, 0x1800000000000, 0xc00000000000, 0x600000000000, 0x300000000000, 0x180000000000, 0xc0000000000, 0x60000000000, 0x30000000000, 0x18000000000, 0xc000000000, 0x6000000000, 0x3000000000, 0x1800000000, 0xc00000000, 0x600000000, 0x300000000, 0x180000000, 0xc0000000, 0x60000000, 0x30000000, 0x18000000, 0xc000000, 0x6000000, 0x3000000, 0x1800000, 0xc00000, 0x600000, 0x300000, 0x180000, 0xc0000, 0x60000, 0x30000, 0x18000, 0xc000, 0x6000, 0x3000, 0x1800, 0xc00, 0x600, 0x300, 0x180, 0xc0, 0x60, 0x30, 0x18, 0xc, 0x6, 0x3, 0x6000000000000000] exB64 = .ok B ∧ isinvertM64 B = .ok 1 := by
  refine ⟨by decide +kernel, ?_⟩
  exact ⟨((invsM64 #v[0xa000000000000000, 0x6000000000000000, 0x3000000000000000, 0x1800000000000000, 0xc00000000000000, 0x600000000000000, 0x300000000000000, 0x180000000000000, 0xc0000000000000, 0x60000000000000, 0x30000000000000, 0x18000000000000, 0xc000000000000, 0x6000000000000, 0x3000000000000, 0x1800000000000, 0xc00000000000, 0x600000000000, 0x300000000000, 0x180000000000, 0xc0000000000, 0x60000000000, 0x30000000000, 0x18000000000, 0xc000000000, 0x6000000000, 0x3000000000, 0x1800000000, 0xc00000000, 0x600000000, 0x300000000, 0x180000000, 0xc0000000, 0x60000000, 0x30000000, 0x18000000, 0xc000000, 0x6000000, 0x3000000, 0x1800000, 0xc00000, 0x600000, 0x300000, 0x180000, 0xc0000, 0x60000, 0x30000, 0x18000, 0xc000, 0x6000, 0x3000, 0x1800, 0xc00, 0x600, 0x300, 0x180, 0xc0, 0x60, 0x30, 0x18, 0xc, 0x6, 0x3, 0x6000000000000000] exB64).toOption.getD exB64), by decide +kernel, by decide +kernel⟩

/-- C14: `invsM128` of a singular matrix silently stores an invertible matrix that is no inverse of it,
on either side. -/
theorem C14_invsM128_singular (A B0 : M128) (hA : ¬ IsUnit (mat128 A)) :
    ∃ B, invsM128 A B0 = .ok B ∧ IsUnit (mat128 B) ∧ mat128 A * mat128 B ≠ 1 ∧
      mat128 B * mat128 A ≠ 1 := by
  obtain ⟨B, hB, hd, _⟩ := invsM128_ok A B0
  refine ⟨B, hB, (isUnit_iff_det _).2 hd, fun h => hA ?_, fun h => hA ?_⟩
  · exact ⟨⟨_, _, h, mat_comm h⟩, rfl⟩
  · exact ⟨⟨_, _, mat_comm h, h⟩, rfl⟩

example : ∃ A : M128, ¬ IsUnit (mat128 A) := by
  refine ⟨Vector.replicate 128 (Vector.replicate 2 0), ?_⟩
  rw [show mat128 _ = 0 from matW_zero (by norm_num)]
  exact not_isUnit_zero

/-- C14: `invsM256` of a singular matrix silently stores an invertible matrix that is no inverse of it,
on either side. -/
theorem C14_invsM256_singular (A B0 : M256) (hA : ¬ IsUnit (mat256 A)) :
    ∃ B, invsM256 A B0 = .ok B ∧ IsUnit (mat256 B) ∧ mat256 A * mat256 B ≠ 1 ∧
      mat256 B * mat256 A ≠ 1 := by
  obtain ⟨B, hB, hd, _⟩ := invsM256_ok A B0
  refine ⟨B, hB, (isUnit_iff_det _).2 hd, fun h => hA ?_, fun h => hA ?_⟩
  · exact ⟨⟨_, _, h, mat_comm h⟩, rfl⟩
  · exact ⟨⟨_, _, mat_comm h, h⟩, rfl⟩

example : ∃ A : M256, ¬ IsUnit (mat256 A) := by
  refine ⟨Vector.replicate 256 (Vector.replicate 4 0), ?_⟩
  rw [show mat256 _ = 0 from matW_zero (by norm_num)]
  exact not_isUnit_zero

end WB
