import Verif.Proof.Inj
import Verif.Prop.Examples

/-!
# C06 — constructors: zero, identity, copy
-/
namespace WB
open Matrix

set_option maxRecDepth 20000

/-- C06: `initM4` stores the zero matrix. -/
theorem C06_initM4 (M0 : M4) : ∃ M, initM4 M0 = .ok M ∧ mat4 M = 0 ∧ CleanM4 M :=
  ⟨_, initM4_eq M0, mat_zero 4, fun i => by simp [Clean4]⟩

/-- C06: `initV4` stores the zero vector. -/
theorem C06_initV4 (v0 : V4) : ∃ v, initV4 v0 = .ok v ∧ vec4 v = 0 ∧ Clean4 v :=
  ⟨0, rfl, by funext c; simp [vecOf, bitS], by simp [Clean4]⟩

/-- C06: `identityM4` stores the identity matrix. -/
theorem C06_identityM4 (M0 : M4) : ∃ M, identityM4 M0 = .ok M ∧ mat4 M = 1 ∧ CleanM4 M :=
  ⟨_, identityM4_eq M0, mat_id idOK4, cleanM4_id⟩

/-- C06: `copyM4` makes the destination equal to the source. -/
theorem C06_copyM4 (A B : M4) : copyM4 A B = .ok A := copyM4_eq A B

example : copyM4 exA4 exB4 = .ok exA4 := by decide +kernel
example : identityM4 exB4 = .ok #v[0x8, 0x4, 0x2, 0x1] := by decide +kernel
example : initM4 exB4 = .ok #v[0x0, 0x0, 0x0, 0x0] := by decide +kernel

/-- C06: `initM8` stores the zero matrix. -/
theorem C06_initM8 (M0 : M8) : ∃ M, initM8 M0 = .ok M ∧ mat8 M = 0 :=
  ⟨_, initM8_eq M0, mat_zero 8⟩

/-- C06: `initV8` stores the zero vector. -/
theorem C06_initV8 (v0 : V8) : ∃ v, initV8 v0 = .ok v ∧ vec8 v = 0 :=
  ⟨0, rfl, by funext c; simp [vecOf, bitS]⟩

/-- C06: `identityM8` stores the identity matrix. -/
theorem C06_identityM8 (M0 : M8) : ∃ M, identityM8 M0 = .ok M ∧ mat8 M = 1 :=
  ⟨_, identityM8_eq M0, mat_id idOK8⟩

/-- C06: `copyM8` makes the destination equal to the source. -/
theorem C06_copyM8 (A B : M8) : copyM8 A B = .ok A := copyM8_eq A B

example : copyM8 exA8 exB8 = .ok exA8 := by decide +kernel
example : identityM8 exB8 = .ok #v[0x80, 0x40, 0x20, 0x10, 0x8, 0x4, 0x2, 0x1] := by decide +kernel
example : initM8 exB8 = .ok #v[0x0, 0x0, 0x0, 0x0, 0x0, 0x0, 0x0, 0x0] := by decide +kernel

/-- C06: `initM16` stores the zero matrix. -/
theorem C06_initM16 (M0 : M16) : ∃ M, initM16 M0 = .ok M ∧ mat16 M = 0 :=
  ⟨_, initM16_eq M0, mat_zero 16⟩

/-- C06: `initV16` stores the zero vector. -/
theorem C06_initV16 (v0 : V16) : ∃ v, initV16 v0 = .ok v ∧ vec16 v = 0 :=
  ⟨0, rfl, by funext c; simp [vecOf, bitS]⟩

/-- C06: `identityM16` stores the identity matrix. -/
theorem C06_identityM16 (M0 : M16) : ∃ M, identityM16 M0 = .ok M ∧ mat16 M = 1 :=
  ⟨_, identityM16_eq M0, mat_id idOK16⟩

/-- C06: `copyM16` makes the destination equal to the source. -/
theorem C06_copyM16 (A B : M16) : copyM16 A B = .ok A := copyM16_eq A B

example : copyM16 exA16 exB16 = .ok exA16 := by decide +kernel
example : identityM16 exB16 = .ok #v[0x8000, 0x4000, 0x2000, 0x1000, 0x800, 0x400, 0x200, 0x100, 0x80, 0x40, 0x20, 0x10, 0x8, 0x4, 0x2, 0x1] := by decide +kernel
example : initM16 exB16 = .ok #v[0x0, 0x0, 0x0, 0x0, 0x0, 0x0, 0x0, 0x0, 0x0, 0x0, 0x0, 0x0, 0x0, 0x0, 0x0, 0x0] := by decide +kernel

/-- C06: `initM32` stores the zero matrix. -/
theorem C06_initM32 (M0 : M32) : ∃ M, initM32 M0 = .ok M ∧ mat32 M = 0 :=
  ⟨_, initM32_eq M0, mat_zero 32⟩

/-- C06: `initV32` stores the zero vector. -/
theorem C06_initV32 (v0 : V32) : ∃ v, initV32 v0 = .ok v ∧ vec32 v = 0 :=
  ⟨0, rfl, by funext c; simp [vecOf, bitS]⟩

/-- C06: `identityM32` stores the identity matrix. -/
theorem C06_identityM32 (M0 : M32) : ∃ M, identityM32 M0 = .ok M ∧ mat32 M = 1 :=
  ⟨_, identityM32_eq M0, mat_id idOK32⟩

/-- C06: `copyM32` makes the destination equal to the source. -/
theorem C06_copyM32 (A B : M32) : copyM32 A B = .ok A := copyM32_eq A B

example : copyM32 exA32 exB32 = .ok exA32 := by decide +kernel
example : identityM32 exB32 = .ok #v[0x80000000, 0x40000000, 0x20000000, 0x10000000, 0x8000000, 0x4000000, 0x2000000, 0x1000000, 0x800000, 0x400000, 0x200000, 0x100000, 0x80000, 0x40000, 0x20000, 0x10000, 0x8000, 0x4000, 0x2000, 0x1000, 0x800, 0x400, 0x200, 0x100, 0x80, 0x40, 0x20, 0x10, 0x8, 0x4, 0x2, 0x1] := by decide +kernel
example : initM32 exB32 = .ok #v[0x0, 0x0, 0x0, 0x0, 0x0, 0x0, 0x0, 0x0, 0x0, 0x0, 0x0, 0x0, 0x0, 0x0, 0x0, 0x0, 0x0, 0x0, 0x0, 0x0, 0x0, 0x0, 0x0, 0x0, 0x0, 0x0, 0x0, 0x0, 0x0, 0x0, 0x0, 0x0] := by decide +kernel

/-- C06: `initM64` stores the zero matrix. -/
theorem C06_initM64 (M0 : M64) : ∃ M, initM64 M0 = .ok M ∧ mat64 M = 0 :=
  ⟨_, initM64_eq M0, mat_zero 64⟩

/-- C06: `initV64` stores the zero vector. -/
theorem C06_initV64 (v0 : V64) : ∃ v, initV64 v0 = .ok v ∧ vec64 v = 0 :=
  ⟨0, rfl, by funext c; simp [vecOf, bitS]⟩

/-- C06: `identityM64` stores the identity matrix. -/
theorem C06_identityM64 (M0 : M64) : ∃ M, identityM64 M0 = .ok M ∧ mat64 M = 1 :=
  ⟨_, identityM64_eq M0, mat_id idOK64⟩

/-- C06: `copyM64` makes the destination equal to the source. -/
theorem C06_copyM64 (A B : M64) : copyM64 A B = .ok A := copyM64_eq A B

example : copyM64 exA64 exB64 = .ok exA64 := by decide +kernel
example : identityM64 exB64 = .ok #v[0x8000000000000000, 0x4000000000000000, 0x2000000000000000, 0x1000000000000000, 0x800000000000000, 0x400000000000000, 0x200000000000000, 0x100000000000000, 0x80000000000000, 0x40000000000000, 0x20000000000000, 0x10000000000000, 0x8000000000000, 0x4000000000000, 0x2000000000000, 0x1000000000000, 0x800000000000, 0x400000000000, 0x200000000000, 0x100000000000, 0x80000000000, 0x40000000000, 0x20000000000, 0x10000000000, 0x8000000000, 0x4000000000, 0x2000000000, 0x1000000000, 0x800000000, 0x400000000, 0x200000000, 0x100000000, 0x80000000, 0x40000000, 0x20000000, 0x10000000, 0x8000000, 0x4000000, 0x2000000, 0x1000000, 0x800000, 0x400000, 0x200000, 0x100000, 0x80000, 0x40000, 0x20000, 0x10000, 0x8000, 0x4000, 0x2000, 0x1000, 0x800, 0x400, 0x200, 0x100, 0x80, 0x40, 0x20, 0x10, 0x8, 0x4, 0x2, 0x1] := by decide +kernel
example : initM64 exB64 = .ok #v[0x0, 0x0, 0x0, 0x0, 0x0, 0x0, 0x0, 0x0, 0x0, 0x0, 0x0, 0x0, 0x0, 0x0, 0x0, 0x0, 0x0, 0x0, 0x0, 0x0, 0x0, 0x0, 0x0, 0x0, 0x0, 0x0, 0x0, 0x0, 0x0, 0x0, 0x0, 0x0, 0x0, 0x0, 0x0, 0x0, 0x0, 0x0, 0x0, 0x0, 0x0, 0x0, 0x0, 0x0, 0x0, 0x0, 0x0, 0x0, 0x0, 0x0, 0x0, 0x0, 0x0, 0x0, 0x0, 0x0, 0x0, 0x0, 0x0, 0x0, 0x0, 0x0, 0x0, 0x0] := by decide +kernel

/-- C06: `initM128` stores the zero matrix. -/
theorem C06_initM128 (M0 : M128) : ∃ M, initM128 M0 = .ok M ∧ mat128 M = 0 :=
  ⟨_, initM128_eq M0, matW_zero (by norm_num)⟩

/-- C06: `initV128` stores the zero vector. -/
theorem C06_initV128 (v0 : V128) : ∃ v, initV128 v0 = .ok v ∧ vec128 v = 0 :=
  ⟨_, initV128_eq v0, by
    funext c
    have := c.2
    have h : c.val / 64 < 2 := by omega
    simp [vecOf, bitW, h]⟩

/-- C06: `identityM128` stores the identity matrix. -/
theorem C06_identityM128 (M0 : M128) : ∃ M, identityM128 M0 = .ok M ∧ mat128 M = 1 :=
  identityM128_ok M0

/-- C06: `copyM128` makes the destination equal to the source. -/
theorem C06_copyM128 (A B : M128) : copyM128 A B = .ok A := copyM128_eq A B

example : copyM128 exA128 exB128 = .ok exA128 := C06_copyM128 exA128 exB128

/-- C06: `initM256` stores the zero matrix. -/
theorem C06_initM256 (M0 : M256) : ∃ M, initM256 M0 = .ok M ∧ mat256 M = 0 :=
  ⟨_, initM256_eq M0, matW_zero (by norm_num)⟩

/-- C06: `initV256` stores the zero vector. -/
theorem C06_initV256 (v0 : V256) : ∃ v, initV256 v0 = .ok v ∧ vec256 v = 0 :=
  ⟨_, initV256_eq v0, by
    funext c
    have := c.2
    have h : c.val / 64 < 4 := by omega
    simp [vecOf, bitW, h]⟩

/-- C06: `identityM256` stores the identity matrix. -/
theorem C06_identityM256 (M0 : M256) : ∃ M, identityM256 M0 = .ok M ∧ mat256 M = 1 :=
  identityM256_ok M0

/-- C06: `copyM256` makes the destination equal to the source. -/
theorem C06_copyM256 (A B : M256) : copyM256 A B = .ok A := copyM256_eq A B

example : copyM256 exA256 exB256 = .ok exA256 := C06_copyM256 exA256 exB256

end WB
