import Verif.Proof.MulAll
import Verif.Prop.Examples

/-!
# C01 — matrix-vector product

`MatMulVecM<n>(Mat, Vec, &ans)` terminates without undefined behaviour and leaves the GF(2)
product in `ans`, for every old content of `ans`, on both byte orders.
-/
namespace WB
open Matrix

set_option maxRecDepth 20000

/-- C01: `MatMulVecM4` stores the product of the matrix and the vector.  Rows and vector may have
dirty high nibbles; the result never has. -/
theorem C01_MatMulVecM4 (env : Env) (A : M4) (x ans : V4) :
    ∃ y, MatMulVecM4 env A x ans = .ok y ∧ vec4 y = (mat4 A).mulVec (vec4 x) ∧ Clean4 y :=
  MatMulVecM4_ok env A x ans

example : MatMulVecM4 exEnv exB4 exX4 exX4 = .ok 0x3 := by decide +kernel
example : MatMulVecM4 exEnvBE exB4 exX4 exX4 = .ok 0x3 := by decide +kernel

/-- C01: `MatMulVecM8` stores the product of the matrix and the vector. -/
theorem C01_MatMulVecM8 (env : Env) (A : M8) (x ans : V8) :
    ∃ y, MatMulVecM8 env A x ans = .ok y ∧ vec8 y = (mat8 A).mulVec (vec8 x) :=
  MatMulVecM8_ok env A x ans

example : MatMulVecM8 exEnv exB8 exX8 exX8 = .ok 0x7d := by decide +kernel
example : MatMulVecM8 exEnvBE exB8 exX8 exX8 = .ok 0x7d := by decide +kernel

/-- C01: `MatMulVecM16` stores the product of the matrix and the vector. -/
theorem C01_MatMulVecM16 (env : Env) (A : M16) (x ans : V16) :
    ∃ y, MatMulVecM16 env A x ans = .ok y ∧ vec16 y = (mat16 A).mulVec (vec16 x) :=
  MatMulVecM16_ok env A x ans

example : MatMulVecM16 exEnv exB16 exX16 exX16 = .ok 0x2b37 := by decide +kernel
example : MatMulVecM16 exEnvBE exB16 exX16 exX16 = .ok 0x2b37 := by decide +kernel

/-- C01: `MatMulVecM32` stores the product of the matrix and the vector. -/
theorem C01_MatMulVecM32 (env : Env) (A : M32) (x ans : V32) :
    ∃ y, MatMulVecM32 env A x ans = .ok y ∧ vec32 y = (mat32 A).mulVec (vec32 x) :=
  MatMulVecM32_ok env A x ans

example : MatMulVecM32 exEnv exB32 exX32 exX32 = .ok 0xcdbb6985 := by decide +kernel
example : MatMulVecM32 exEnvBE exB32 exX32 exX32 = .ok 0xcdbb6985 := by decide +kernel

/-- C01: `MatMulVecM64` stores the product of the matrix and the vector. -/
theorem C01_MatMulVecM64 (env : Env) (A : M64) (x ans : V64) :
    ∃ y, MatMulVecM64 env A x ans = .ok y ∧ vec64 y = (mat64 A).mulVec (vec64 x) :=
  MatMulVecM64_ok env A x ans

example : MatMulVecM64 exEnv exB64 exX64 exX64 = .ok 0xa74238cad03356fd := by decide +kernel
example : MatMulVecM64 exEnvBE exB64 exX64 exX64 = .ok 0xa74238cad03356fd := by decide +kernel

/-- C01: `MatMulVecM128` stores the product of the matrix and the vector. -/
theorem C01_MatMulVecM128 (env : Env) (A : M128) (x ans : V128) :
    ∃ y, MatMulVecM128 env A x ans = .ok y ∧ vec128 y = (mat128 A).mulVec (vec128 x) :=
  MatMulVecM128_ok env A x ans

example : MatMulVecM128 exEnv exB128 exX128 exX128 = .ok #v[0x4cb36496138a1ef3, 0xec5b0f2c001a7920] := by decide +kernel

/-- C01: `MatMulVecM256` stores the product of the matrix and the vector. -/
theorem C01_MatMulVecM256 (env : Env) (A : M256) (x ans : V256) :
    ∃ y, MatMulVecM256 env A x ans = .ok y ∧ vec256 y = (mat256 A).mulVec (vec256 x) :=
  MatMulVecM256_ok env A x ans

example : ∃ y, MatMulVecM256 exEnvBE exB256 exX256 exX256 = .ok y ∧ vec256 y = (mat256 exB256).mulVec (vec256 exX256) :=
  C01_MatMulVecM256 exEnvBE exB256 exX256 exX256

end WB
