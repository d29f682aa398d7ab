import Verif.Proof.Affine
import Verif.Prop.Examples

/-!
# C17 — affine transformation
-/
namespace WB
open Matrix

set_option maxRecDepth 20000

/-- C17: `affineU4` computes `Mat·x + Vec`. -/
theorem C17_affineU4 (env : Env) (f : Aff4) (x : BitVec 8) :
    ∃ y, affineU4 env f x = .ok y ∧ vec4 y = (mat4 f.Mat).mulVec (vec4 x) + vec4 f.Vec ∧ (Clean4 f.Vec → Clean4 y) :=
  affineU4_ok env f x

example : affineU4 exEnv ⟨exB4, 0xb⟩ exX4 = .ok 0x8 := by decide +kernel

/-- C17: `affineU8` computes `Mat·x + Vec`. -/
theorem C17_affineU8 (env : Env) (f : Aff8) (x : BitVec 8) :
    ∃ y, affineU8 env f x = .ok y ∧ vec8 y = (mat8 f.Mat).mulVec (vec8 x) + vec8 f.Vec :=
  affineU8_ok env f x

example : affineU8 exEnv ⟨exB8, 0x3b⟩ exX8 = .ok 0x46 := by decide +kernel

/-- C17: `affineU16` computes `Mat·x + Vec`. -/
theorem C17_affineU16 (env : Env) (f : Aff16) (x : BitVec 16) :
    ∃ y, affineU16 env f x = .ok y ∧ vec16 y = (mat16 f.Mat).mulVec (vec16 x) + vec16 f.Vec :=
  affineU16_ok env f x

example : affineU16 exEnv ⟨exB16, 0x3b⟩ exX16 = .ok 0x2b0c := by decide +kernel

/-- C17: `affineU32` computes `Mat·x + Vec`. -/
theorem C17_affineU32 (env : Env) (f : Aff32) (x : BitVec 32) :
    ∃ y, affineU32 env f x = .ok y ∧ vec32 y = (mat32 f.Mat).mulVec (vec32 x) + vec32 f.Vec :=
  affineU32_ok env f x

example : affineU32 exEnv ⟨exB32, 0x3b⟩ exX32 = .ok 0xcdbb69be := by decide +kernel

/-- C17: `affineU64` computes `Mat·x + Vec`. -/
theorem C17_affineU64 (env : Env) (f : Aff64) (x : BitVec 64) :
    ∃ y, affineU64 env f x = .ok y ∧ vec64 y = (mat64 f.Mat).mulVec (vec64 x) + vec64 f.Vec :=
  affineU64_ok env f x

example : affineU64 exEnv ⟨exB64, 0x3b⟩ exX64 = .ok 0xa74238cad03356c6 := by decide +kernel

/-- C17: `affineU128` computes `Mat·x + Vec`.  `z` is the old contents of the result array; it may be the array `x` itself. -/
theorem C17_affineU128 (env : Env) (f : Aff128) (x : Vector (BitVec 64) 2) (z : Vector (BitVec 64) 2) :
    ∃ y, affineU128 env f x z = .ok y ∧ vec128 y = (mat128 f.Mat).mulVec (vec128 x) + vec128 f.Vec :=
  affineU128_ok env f x z

example : affineU128 exEnv ⟨exB128, #v[0x0, 0x3b]⟩ exX128 exX128 = .ok #v[0x4cb36496138a1ef3, 0xec5b0f2c001a791b] := by decide +kernel

/-- C17: in-place use. -/
theorem C17_affineU128_inplace (env : Env) (f : Aff128) (x : Vector (BitVec 64) 2) :
    ∃ y, affineU128 env f x x = .ok y ∧ vec128 y = (mat128 f.Mat).mulVec (vec128 x) + vec128 f.Vec :=
  affineU128_ok env f x x

example : (affineU128 exEnv ⟨exB128, exX128⟩ exX128 exX128).toOption.isSome := by decide +kernel

end WB
