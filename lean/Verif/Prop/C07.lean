import Verif.Proof.Inj
import Verif.Prop.Examples

/-!
# C07 — matrix equality test
-/
namespace WB
open Matrix

set_option maxRecDepth 20000

/-- C07: `isequalM4` decides equality of matrix objects. -/
theorem C07_isequalM4 (A B : M4) : isequalM4 A B = .ok (if A = B then 1 else 0) :=
  isequalM4_eq A B

/-- C07: in terms of the denoted GF(2) matrices, for clean 4-bit matrices. -/
theorem C07_isequalM4_mat (A B : M4) (hA : CleanM4 A) (hB : CleanM4 B) :
    isequalM4 A B = .ok (if mat4 A = mat4 B then 1 else 0) := by
  rw [isequalM4_eq]
  exact congrArg Except.ok (if_congr ⟨fun h => by rw [h], mat4_inj hA hB⟩ rfl rfl)

example : CleanM4 exA4 ∧ CleanM4 exB4 := ⟨exA4_clean, exB4_clean⟩

example : isequalM4 exA4 exB4 = .ok 0 := by decide +kernel
example : isequalM4 exB4 exB4 = .ok 1 := by decide +kernel

/-- C07: `isequalM8` decides equality of matrix objects. -/
theorem C07_isequalM8 (A B : M8) : isequalM8 A B = .ok (if A = B then 1 else 0) :=
  isequalM8_eq A B

/-- C07: in terms of the denoted GF(2) matrices. -/
theorem C07_isequalM8_mat (A B : M8) :
    isequalM8 A B = .ok (if mat8 A = mat8 B then 1 else 0) := by
  rw [isequalM8_eq]
  exact congrArg Except.ok (if_congr ⟨fun h => by rw [h], mat8_inj⟩ rfl rfl)

example : isequalM8 exA8 exB8 = .ok 0 := by decide +kernel
example : isequalM8 exB8 exB8 = .ok 1 := by decide +kernel

/-- C07: `isequalM16` decides equality of matrix objects. -/
theorem C07_isequalM16 (A B : M16) : isequalM16 A B = .ok (if A = B then 1 else 0) :=
  isequalM16_eq A B

/-- C07: in terms of the denoted GF(2) matrices. -/
theorem C07_isequalM16_mat (A B : M16) :
    isequalM16 A B = .ok (if mat16 A = mat16 B then 1 else 0) := by
  rw [isequalM16_eq]
  exact congrArg Except.ok (if_congr ⟨fun h => by rw [h], mat16_inj⟩ rfl rfl)

example : isequalM16 exA16 exB16 = .ok 0 := by decide +kernel
example : isequalM16 exB16 exB16 = .ok 1 := by decide +kernel

/-- C07: `isequalM32` decides equality of matrix objects. -/
theorem C07_isequalM32 (A B : M32) : isequalM32 A B = .ok (if A = B then 1 else 0) :=
  isequalM32_eq A B

/-- C07: in terms of the denoted GF(2) matrices. -/
theorem C07_isequalM32_mat (A B : M32) :
    isequalM32 A B = .ok (if mat32 A = mat32 B then 1 else 0) := by
  rw [isequalM32_eq]
  exact congrArg Except.ok (if_congr ⟨fun h => by rw [h], mat32_inj⟩ rfl rfl)

example : isequalM32 exA32 exB32 = .ok 0 := by decide +kernel
example : isequalM32 exB32 exB32 = .ok 1 := by decide +kernel

/-- C07: `isequalM64` decides equality of matrix objects. -/
theorem C07_isequalM64 (A B : M64) : isequalM64 A B = .ok (if A = B then 1 else 0) :=
  isequalM64_eq A B

/-- C07: in terms of the denoted GF(2) matrices. -/
theorem C07_isequalM64_mat (A B : M64) :
    isequalM64 A B = .ok (if mat64 A = mat64 B then 1 else 0) := by
  rw [isequalM64_eq]
  exact congrArg Except.ok (if_congr ⟨fun h => by rw [h], mat64_inj⟩ rfl rfl)

example : isequalM64 exA64 exB64 = .ok 0 := by decide +kernel
example : isequalM64 exB64 exB64 = .ok 1 := by decide +kernel

/-- C07: `isequalM128` decides equality of matrix objects. -/
theorem C07_isequalM128 (A B : M128) : isequalM128 A B = .ok (if A = B then 1 else 0) :=
  isequalM128_eq A B

/-- C07: in terms of the denoted GF(2) matrices. -/
theorem C07_isequalM128_mat (A B : M128) :
    isequalM128 A B = .ok (if mat128 A = mat128 B then 1 else 0) := by
  rw [isequalM128_eq]
  exact congrArg Except.ok (if_congr ⟨fun h => by rw [h], mat128_inj⟩ rfl rfl)

example : isequalM128 exA128 exB128 = .ok 0 := by decide +kernel
example : isequalM128 exB128 exB128 = .ok 1 := by decide +kernel

/-- C07: `isequalM256` decides equality of matrix objects. -/
theorem C07_isequalM256 (A B : M256) : isequalM256 A B = .ok (if A = B then 1 else 0) :=
  isequalM256_eq A B

/-- C07: in terms of the denoted GF(2) matrices. -/
theorem C07_isequalM256_mat (A B : M256) :
    isequalM256 A B = .ok (if mat256 A = mat256 B then 1 else 0) := by
  rw [isequalM256_eq]
  exact congrArg Except.ok (if_congr ⟨fun h => by rw [h], mat256_inj⟩ rfl rfl)

example : isequalM256 exA256 exB256 = .ok 0 := by decide +kernel
example : isequalM256 exB256 exB256 = .ok 1 := by decide +kernel

end WB
