import Verif.Proof.Inj
import Verif.Prop.Examples

/-!
# C02 — matrix-number product agrees with matrix-vector product
-/
namespace WB
open Matrix

set_option maxRecDepth 20000

/-- C02: `MatMulNumM4` returns the product, and it is exactly what `MatMulVecM4` stores. -/
theorem C02_MatMulNumM4 (env : Env) (A : M4) (x : BitVec 8) (ans : V4) :
    ∃ y, MatMulNumM4 env A x = .ok y ∧ MatMulVecM4 env A x ans = .ok y ∧
      vec4 y = (mat4 A).mulVec (vec4 x) ∧ Clean4 y := by
  obtain ⟨y, hy, h⟩ := MatMulNumM4_ok env A x
  obtain ⟨z, hz, h'⟩ := MatMulVecM4_ok env A x ans
  have e : y = z := vec4_inj h.2 h'.2 (h.1.trans h'.1.symm)
  subst e
  exact ⟨y, hy, hz, h⟩

example : MatMulNumM4 exEnv exB4 exX4 = .ok 0x3 := by decide +kernel

/-- C02: `MatMulNumM8` returns the product, and it is exactly what `MatMulVecM8` stores. -/
theorem C02_MatMulNumM8 (env : Env) (A : M8) (x : BitVec 8) (ans : V8) :
    ∃ y, MatMulNumM8 env A x = .ok y ∧ MatMulVecM8 env A x ans = .ok y ∧
      vec8 y = (mat8 A).mulVec (vec8 x) := by
  obtain ⟨y, hy, h⟩ := MatMulNumM8_ok env A x
  obtain ⟨z, hz, h'⟩ := MatMulVecM8_ok env A x ans
  have e : y = z := vecS_inj (h.trans h'.symm)
  subst e
  exact ⟨y, hy, hz, h⟩

example : MatMulNumM8 exEnv exB8 exX8 = .ok 0x7d := by decide +kernel

/-- C02: `MatMulNumM16` returns the product, and it is exactly what `MatMulVecM16` stores. -/
theorem C02_MatMulNumM16 (env : Env) (A : M16) (x : BitVec 16) (ans : V16) :
    ∃ y, MatMulNumM16 env A x = .ok y ∧ MatMulVecM16 env A x ans = .ok y ∧
      vec16 y = (mat16 A).mulVec (vec16 x) := by
  obtain ⟨y, hy, h⟩ := MatMulNumM16_ok env A x
  obtain ⟨z, hz, h'⟩ := MatMulVecM16_ok env A x ans
  have e : y = z := vecS_inj (h.trans h'.symm)
  subst e
  exact ⟨y, hy, hz, h⟩

example : MatMulNumM16 exEnv exB16 exX16 = .ok 0x2b37 := by decide +kernel

/-- C02: `MatMulNumM32` returns the product, and it is exactly what `MatMulVecM32` stores. -/
theorem C02_MatMulNumM32 (env : Env) (A : M32) (x : BitVec 32) (ans : V32) :
    ∃ y, MatMulNumM32 env A x = .ok y ∧ MatMulVecM32 env A x ans = .ok y ∧
      vec32 y = (mat32 A).mulVec (vec32 x) := by
  obtain ⟨y, hy, h⟩ := MatMulNumM32_ok env A x
  obtain ⟨z, hz, h'⟩ := MatMulVecM32_ok env A x ans
  have e : y = z := vecS_inj (h.trans h'.symm)
  subst e
  exact ⟨y, hy, hz, h⟩

example : MatMulNumM32 exEnv exB32 exX32 = .ok 0xcdbb6985 := by decide +kernel

/-- C02: `MatMulNumM64` returns the product, and it is exactly what `MatMulVecM64` stores. -/
theorem C02_MatMulNumM64 (env : Env) (A : M64) (x : BitVec 64) (ans : V64) :
    ∃ y, MatMulNumM64 env A x = .ok y ∧ MatMulVecM64 env A x ans = .ok y ∧
      vec64 y = (mat64 A).mulVec (vec64 x) := by
  obtain ⟨y, hy, h⟩ := MatMulNumM64_ok env A x
  obtain ⟨z, hz, h'⟩ := MatMulVecM64_ok env A x ans
  have e : y = z := vecS_inj (h.trans h'.symm)
  subst e
  exact ⟨y, hy, hz, h⟩

example : MatMulNumM64 exEnv exB64 exX64 = .ok 0xa74238cad03356fd := by decide +kernel

end WB
