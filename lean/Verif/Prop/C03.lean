import Verif.Proof.MulAll
import Verif.Prop.Examples

/-!
# C03 — matrix-matrix product
-/
namespace WB
open Matrix

set_option maxRecDepth 20000

/-- C03: `MatMulMatM4` stores the matrix product.  The rows of the right factor must have zero high nibbles; those of the left factor need not. -/
theorem C03_MatMulMatM4 (env : Env) (A B C0 : M4) (hB : CleanM4 B) :
    ∃ C, MatMulMatM4 env A B C0 = .ok C ∧ mat4 C = mat4 A * mat4 B ∧ CleanM4 C :=
  MatMulMatM4_ok env A B C0 hB

example : MatMulMatM4 exEnv exA4 exB4 exB4 = .ok #v[0x4, 0xf, 0x2, 0xd] := by decide +kernel

example : CleanM4 exB4 := exB4_clean

/-- C03: `MatMulMatM8` stores the matrix product. -/
theorem C03_MatMulMatM8 (env : Env) (A B C0 : M8) :
    ∃ C, MatMulMatM8 env A B C0 = .ok C ∧ mat8 C = mat8 A * mat8 B :=
  MatMulMatM8_ok env A B C0

example : MatMulMatM8 exEnv exA8 exB8 exB8 = .ok #v[0x44, 0xef, 0xf2, 0xc4, 0x90, 0x8c, 0xa1, 0xb4] := by decide +kernel

/-- C03: `MatMulMatM16` stores the matrix product. -/
theorem C03_MatMulMatM16 (env : Env) (A B C0 : M16) :
    ∃ C, MatMulMatM16 env A B C0 = .ok C ∧ mat16 C = mat16 A * mat16 B :=
  MatMulMatM16_ok env A B C0

example : MatMulMatM16 exEnv exA16 exB16 exB16 = .ok #v[0xbf44, 0x37ef, 0x66f2, 0x6cc4, 0xad90, 0xd58c, 0xfaa1, 0x9f25, 0x53f9, 0xea4a, 0x9d50, 0xf342, 0x1e4e, 0xc3a1, 0xd85e, 0xc381] := by decide +kernel

/-- C03: `MatMulMatM32` stores the matrix product. -/
theorem C03_MatMulMatM32 (env : Env) (A B C0 : M32) :
    ∃ C, MatMulMatM32 env A B C0 = .ok C ∧ mat32 C = mat32 A * mat32 B :=
  MatMulMatM32_ok env A B C0

example : MatMulMatM32 exEnv exA32 exB32 exB32 = .ok #v[0xead9bf44, 0x7d5b37ef, 0x4fab66f2, 0xa9f56cc4, 0x753ead90, 0xcea7d58c, 0x79d4faa1, 0xf3a9f25, 0x61e753f9, 0xec3cea4a, 0x1d879d50, 0xe3b0f342, 0xbc761e4e, 0x378ec3a1, 0x6f1d85e, 0xe0de3aec, 0x3c1bc742, 0xc783788b, 0x58f06f32, 0xeb1e0d18, 0xdd63c197, 0x1bac7868, 0xa3758cf1, 0x346eb1b3, 0x868dd60f, 0x70d1ba10, 0x8e1a3727, 0x31c34720, 0x26386886, 0x24c70dd4, 0xa498e1e4, 0x8411389d] := by decide +kernel

/-- C03: `MatMulMatM64` stores the matrix product. -/
theorem C03_MatMulMatM64 (env : Env) (A B C0 : M64) :
    ∃ C, MatMulMatM64 env A B C0 = .ok C ∧ mat64 C = mat64 A * mat64 B :=
  MatMulMatM64_ok env A B C0

example : ∃ C, MatMulMatM64 exEnvBE exA64 exB64 exB64 = .ok C ∧ mat64 C = mat64 exA64 * mat64 exB64 :=
  C03_MatMulMatM64 exEnvBE exA64 exB64 exB64

/-- C03: `MatMulMatM128` stores the matrix product. -/
theorem C03_MatMulMatM128 (env : Env) (A B C0 : M128) :
    ∃ C, MatMulMatM128 env A B C0 = .ok C ∧ mat128 C = mat128 A * mat128 B :=
  MatMulMatM128_ok env A B C0

example : ∃ C, MatMulMatM128 exEnvBE exA128 exB128 exB128 = .ok C ∧ mat128 C = mat128 exA128 * mat128 exB128 :=
  C03_MatMulMatM128 exEnvBE exA128 exB128 exB128

/-- C03: `MatMulMatM256` stores the matrix product. -/
theorem C03_MatMulMatM256 (env : Env) (A B C0 : M256) :
    ∃ C, MatMulMatM256 env A B C0 = .ok C ∧ mat256 C = mat256 A * mat256 B :=
  MatMulMatM256_ok env A B C0

example : ∃ C, MatMulMatM256 exEnvBE exA256 exB256 exB256 = .ok C ∧ mat256 C = mat256 exA256 * mat256 exB256 :=
  C03_MatMulMatM256 exEnvBE exA256 exB256 exB256

end WB
