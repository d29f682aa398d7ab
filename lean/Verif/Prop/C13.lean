import Verif.Proof.Inj
import Verif.Prop.Examples

/-!
# C13 — matrix inverse
-/
namespace WB
open Matrix

set_option maxRecDepth 20000

/-- C13: `invsM4` of an invertible matrix stores its two-sided inverse. -/
theorem C13_invsM4 (A B0 : M4) (hA : IsUnit (mat4 A)) :
    ∃ B, invsM4 A B0 = .ok B ∧ mat4 A * mat4 B = 1 ∧ mat4 B * mat4 A = 1 ∧ CleanM4 B := by
  obtain ⟨B, hB, -, hc, h⟩ := invsM4_ok A B0
  have h' := h ((isUnit_iff_det _).1 hA)
  exact ⟨B, hB, mat_comm h', h', hc⟩

example : IsUnit (mat4 exA4) := by
  obtain ⟨r, hr, _, h1, _⟩ := isinvertM4_ok exA4
  have : isinvertM4 exA4 = .ok 1 := by decide +kernel
  rw [hr] at this
  exact (isUnit_iff_det _).2 (h1 (Except.ok.inj this))
example : invsM4 exA4 exB4 = .ok #v[0xf, 0x7, 0x3, 0x1] := by decide +kernel

/-- C13: `invsM8` of an invertible matrix stores its two-sided inverse. -/
theorem C13_invsM8 (A B0 : M8) (hA : IsUnit (mat8 A)) :
    ∃ B, invsM8 A B0 = .ok B ∧ mat8 A * mat8 B = 1 ∧ mat8 B * mat8 A = 1 := by
  obtain ⟨B, hB, -, h⟩ := invsM8_ok A B0
  have h' := h ((isUnit_iff_det _).1 hA)
  exact ⟨B, hB, mat_comm h', h'⟩

example : IsUnit (mat8 exA8) := by
  obtain ⟨r, hr, _, h1, _⟩ := isinvertM8_ok exA8
  have : isinvertM8 exA8 = .ok 1 := by decide +kernel
  rw [hr] at this
  exact (isUnit_iff_det _).2 (h1 (Except.ok.inj this))
example : invsM8 exA8 exB8 = .ok #v[0xff, 0x7f, 0x3f, 0x1f, 0xf, 0x7, 0x3, 0x1] := by decide +kernel

/-- C13: `invsM16` of an invertible matrix stores its two-sided inverse. -/
theorem C13_invsM16 (A B0 : M16) (hA : IsUnit (mat16 A)) :
    ∃ B, invsM16 A B0 = .ok B ∧ mat16 A * mat16 B = 1 ∧ mat16 B * mat16 A = 1 := by
  obtain ⟨B, hB, -, h⟩ := invsM16_ok A B0
  have h' := h ((isUnit_iff_det _).1 hA)
  exact ⟨B, hB, mat_comm h', h'⟩

example : IsUnit (mat16 exA16) := by
  obtain ⟨r, hr, _, h1, _⟩ := isinvertM16_ok exA16
  have : isinvertM16 exA16 = .ok 1 := by decide +kernel
  rw [hr] at this
  exact (isUnit_iff_det _).2 (h1 (Except.ok.inj this))
example : invsM16 exA16 exB16 = .ok #v[0xffff, 0x7fff, 0x3fff, 0x1fff, 0xfff, 0x7ff, 0x3ff, 0x1ff, 0xff, 0x7f, 0x3f, 0x1f, 0xf, 0x7, 0x3, 0x1] := by decide +kernel

/-- C13: `invsM32` of an invertible matrix stores its two-sided inverse. -/
theorem C13_invsM32 (A B0 : M32) (hA : IsUnit (mat32 A)) :
    ∃ B, invsM32 A B0 = .ok B ∧ mat32 A * mat32 B = 1 ∧ mat32 B * mat32 A = 1 := by
  obtain ⟨B, hB, -, h⟩ := invsM32_ok A B0
  have h' := h ((isUnit_iff_det _).1 hA)
  exact ⟨B, hB, mat_comm h', h'⟩

example : IsUnit (mat32 exA32) := by
  obtain ⟨r, hr, _, h1, _⟩ := isinvertM32_ok exA32
  have : isinvertM32 exA32 = .ok 1 := by decide +kernel
  rw [hr] at this
  exact (isUnit_iff_det _).2 (h1 (Except.ok.inj this))
example : invsM32 exA32 exB32 = .ok #v[0xffffffff, 0x7fffffff, 0x3fffffff, 0x1fffffff, 0xfffffff, 0x7ffffff, 0x3ffffff, 0x1ffffff, 0xffffff, 0x7fffff, 0x3fffff, 0x1fffff, 0xfffff, 0x7ffff, 0x3ffff, 0x1ffff, 0xffff, 0x7fff, 0x3fff, 0x1fff, 0xfff, 0x7ff, 0x3ff, 0x1ff, 0xff, 0x7f, 0x3f, 0x1f, 0xf, 0x7, 0x3, 0x1] := by decide +kernel

/-- C13: `invsM64` of an invertible matrix stores its two-sided inverse. -/
theorem C13_invsM64 (A B0 : M64) (hA : IsUnit (mat64 A)) :
    ∃ B, invsM64 A B0 = .ok B ∧ mat64 A * mat64 B = 1 ∧ mat64 B * mat64 A = 1 := by
  obtain ⟨B, hB, -, h⟩ := invsM64_ok A B0
  have h' := h ((isUnit_iff_det _).1 hA)
  exact ⟨B, hB, mat_comm h', h'⟩

example : IsUnit (mat64 exA64) := by
  obtain ⟨r, hr, _, h1, _⟩ := isinvertM64_ok exA64
  have : isinvertM64 exA64 = .ok 1 := by decide +kernel
  rw [hr] at this
  exact (isUnit_iff_det _).2 (h1 (Except.ok.inj this))
example : invsM64 exA64 exB64 = .ok #v[0xffffffffffffffff, 0x7fffffffffffffff, 0x3fffffffffffffff, 0x1fffffffffffffff, 0xfffffffffffffff, 0x7ffffffffffffff, 0x3ffffffffffffff, 0x1ffffffffffffff, 0xffffffffffffff, 0x7fffffffffffff, 0x3fffffffffffff, 0x1fffffffffffff, 0xfffffffffffff, 0x7ffffffffffff, 0x3ffffffffffff, 0x1ffffffffffff, 0xffffffffffff, 0x7fffffffffff, 0x3fffffffffff, 0x1fffffffffff, 0xfffffffffff, 0x7ffffffffff, 0x3ffffffffff, 0x1ffffffffff, 0xffffffffff, 0x7fffffffff, 0x3fffffffff, 0x1fffffffff, 0xfffffffff, 0x7ffffffff, 0x3ffffffff, 0x1ffffffff, 0xffffffff, 0x7fffffff, 0x3fffffff, 0x1fffffff, 0xfffffff, 0x7ffffff, 0x3ffffff, 0x1ffffff, 0xffffff, 0x7fffff, 0x3fffff, 0x1fffff, 0xfffff, 0x7ffff, 0x3ffff, 0x1ffff, 0xffff, 0x7fff, 0x3fff, 0x1fff, 0xfff, 0x7ff, 0x3ff, 0x1ff, 0xff, 0x7f, 0x3f, 0x1f, 0xf, 0x7, 0x3, 0x1] := by decide +kernel

/-- C13: `invsM128` of an invertible matrix stores its two-sided inverse. -/
theorem C13_invsM128 (A B0 : M128) (hA : IsUnit (mat128 A)) :
    ∃ B, invsM128 A B0 = .ok B ∧ mat128 A * mat128 B = 1 ∧ mat128 B * mat128 A = 1 := by
  obtain ⟨B, hB, -, h⟩ := invsM128_ok A B0
  have h' := h ((isUnit_iff_det _).1 hA)
  exact ⟨B, hB, mat_comm h', h'⟩

example : ∃ A B w, genMatpairM128 exEnv exB128 exB128 exWorld = .ok ((A, B), w) ∧ IsUnit (mat128 A) := by
  obtain ⟨⟨⟨A, B⟩, w⟩, h, hAB, _⟩ := genMatpairM128_ok exEnv exB128 exB128 exWorld
  exact ⟨A, B, w, h, ⟨⟨_, _, hAB, mat_comm hAB⟩, rfl⟩⟩

/-- C13: `invsM256` of an invertible matrix stores its two-sided inverse. -/
theorem C13_invsM256 (A B0 : M256) (hA : IsUnit (mat256 A)) :
    ∃ B, invsM256 A B0 = .ok B ∧ mat256 A * mat256 B = 1 ∧ mat256 B * mat256 A = 1 := by
  obtain ⟨B, hB, -, h⟩ := invsM256_ok A B0
  have h' := h ((isUnit_iff_det _).1 hA)
  exact ⟨B, hB, mat_comm h', h'⟩

example : ∃ A B w, genMatpairM256 exEnv exB256 exB256 exWorld = .ok ((A, B), w) ∧ IsUnit (mat256 A) := by
  obtain ⟨⟨⟨A, B⟩, w⟩, h, hAB, _⟩ := genMatpairM256_ok exEnv exB256 exB256 exWorld
  exact ⟨A, B, w, h, ⟨⟨_, _, hAB, mat_comm hAB⟩, rfl⟩⟩

end WB
