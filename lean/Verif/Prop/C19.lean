import Verif.Proof.Affine
import Verif.Prop.Examples

/-!
# C19 — affine mix is composition
-/
namespace WB
open Matrix

set_option maxRecDepth 20000

/-- C19: `affinemixM4 f g` is the composition `f ∘ g`. -/
theorem C19_affinemixM4 (env : Env) (f g m0 : Aff4) (hg : CleanM4 g.Mat) :
    ∃ m, affinemixM4 env f g m0 = .ok m ∧
      ∀ (x : BitVec 8), ∃ y z, affineU4 env g x = .ok y ∧
        affineU4 env f y = .ok z ∧ affineU4 env m x = .ok z := by
  have hmix : ∃ A v, MatMulMatM4 env f.Mat g.Mat m0.Mat = .ok A ∧
      MatMulVecM4 env f.Mat g.Vec m0.Vec = .ok v ∧ affinemixM4 env f g m0 = .ok ⟨A, v ^^^ f.Vec⟩ := by
    obtain ⟨A, hA, _⟩ := MatMulMatM4_ok env f.Mat g.Mat m0.Mat hg
    obtain ⟨v, hv, _⟩ := MatMulVecM4_ok env f.Mat g.Vec m0.Vec
    refine ⟨A, v, hA, hv, ?_⟩
    unfold affinemixM4
    rw [hA, C_pure_bind, hv, C_pure_bind]; rfl
  obtain ⟨A, v, hA, hv, hm⟩ := hmix
  refine ⟨_, hm, fun x => ?_⟩
  obtain ⟨A', hA', eA, -⟩ := MatMulMatM4_ok env f.Mat g.Mat m0.Mat hg
  obtain rfl : A' = A := Except.ok.inj (hA'.symm.trans hA)
  obtain ⟨v', hv', ev, cv⟩ := MatMulVecM4_ok env f.Mat g.Vec m0.Vec
  obtain rfl : v' = v := Except.ok.inj (hv'.symm.trans hv)
  obtain ⟨y1, hy1, ey1, cy1⟩ := MatMulVecM4_ok env g.Mat x (env.junk 8 0)
  obtain ⟨z1, hz1, ez1, cz1⟩ := MatMulVecM4_ok env f.Mat (y1 ^^^ g.Vec) (env.junk 8 0)
  obtain ⟨z2, hz2, ez2, cz2⟩ := MatMulVecM4_ok env A' x (env.junk 8 0)
  refine ⟨y1 ^^^ g.Vec, z1 ^^^ f.Vec, ?_, ?_, ?_⟩
  · unfold affineU4; rw [hy1, C_pure_bind]; rfl
  · unfold affineU4; rw [hz1, C_pure_bind]; rfl
  · unfold affineU4
    rw [hz2, C_pure_bind]
    have e : z2 ^^^ v' = z1 := by
      refine vec4_inj (clean4_xor cz2 cv) cz1 ?_
      rw [show vec4 (z2 ^^^ v') = vec4 z2 + vec4 v' from vec_add z2 v', ez1, ez2, eA, ev,
        show vec4 (y1 ^^^ g.Vec) = vec4 y1 + vec4 g.Vec from vec_add y1 g.Vec, ey1, mulVec_add,
        mulVec_mulVec]
    rw [← e, BitVec.xor_assoc]; rfl

example : CleanM4 exB4 := exB4_clean

example : (affinemixM4 exEnv ⟨exA4, 5⟩ ⟨exB4, exX4⟩ ⟨exB4, 1⟩).map (fun m => (m.Mat, m.Vec)) =
    .ok (#v[0x4, 0xf, 0x2, 0xd], 0x6) := by decide +kernel

/-- C19: `affinemixM8 f g` is the composition `f ∘ g`. -/
theorem C19_affinemixM8 (env : Env) (f g m0 : Aff8) :
    ∃ m, affinemixM8 env f g m0 = .ok m ∧
      ∀ (x : BitVec 8), ∃ y z, affineU8 env g x = .ok y ∧
        affineU8 env f y = .ok z ∧ affineU8 env m x = .ok z := by
  obtain ⟨m, hm, eM, eV⟩ := affinemixM8_ok env f g m0
  refine ⟨m, hm, fun x => ?_⟩
  obtain ⟨y, hy, ey⟩ := affineU8_ok env g x
  obtain ⟨z, hz, ez⟩ := affineU8_ok env f y
  obtain ⟨z', hz', ez'⟩ := affineU8_ok env m x
  have e : z' = z := vec8_inj (by
    rw [ez', ez, ey, eM, eV, mulVec_add, mulVec_mulVec, add_assoc])
  exact ⟨y, z, hy, hz, e ▸ hz'⟩

example : (affinemixM8 exEnv ⟨exA8, 5⟩ ⟨exB8, exX8⟩ ⟨exB8, 1⟩).map (fun m => (m.Mat, m.Vec)) =
    .ok (#v[0x44, 0xef, 0xf2, 0xc4, 0x90, 0x8c, 0xa1, 0xb4], 0x16) := by decide +kernel

/-- C19: `affinemixM16 f g` is the composition `f ∘ g`. -/
theorem C19_affinemixM16 (env : Env) (f g m0 : Aff16) :
    ∃ m, affinemixM16 env f g m0 = .ok m ∧
      ∀ (x : BitVec 16), ∃ y z, affineU16 env g x = .ok y ∧
        affineU16 env f y = .ok z ∧ affineU16 env m x = .ok z := by
  obtain ⟨m, hm, eM, eV⟩ := affinemixM16_ok env f g m0
  refine ⟨m, hm, fun x => ?_⟩
  obtain ⟨y, hy, ey⟩ := affineU16_ok env g x
  obtain ⟨z, hz, ez⟩ := affineU16_ok env f y
  obtain ⟨z', hz', ez'⟩ := affineU16_ok env m x
  have e : z' = z := vec16_inj (by
    rw [ez', ez, ey, eM, eV, mulVec_add, mulVec_mulVec, add_assoc])
  exact ⟨y, z, hy, hz, e ▸ hz'⟩

example : (affinemixM16 exEnv ⟨exA16, 5⟩ ⟨exB16, exX16⟩ ⟨exB16, 1⟩).map (fun m => (m.Mat, m.Vec)) =
    .ok (#v[0xbf44, 0x37ef, 0x66f2, 0x6cc4, 0xad90, 0xd58c, 0xfaa1, 0x9f25, 0x53f9, 0xea4a, 0x9d50, 0xf342, 0x1e4e, 0xc3a1, 0xd85e, 0xc381], 0x6316) := by decide +kernel

/-- C19: `affinemixM32 f g` is the composition `f ∘ g`. -/
theorem C19_affinemixM32 (env : Env) (f g m0 : Aff32) :
    ∃ m, affinemixM32 env f g m0 = .ok m ∧
      ∀ (x : BitVec 32), ∃ y z, affineU32 env g x = .ok y ∧
        affineU32 env f y = .ok z ∧ affineU32 env m x = .ok z := by
  obtain ⟨m, hm, eM, eV⟩ := affinemixM32_ok env f g m0
  refine ⟨m, hm, fun x => ?_⟩
  obtain ⟨y, hy, ey⟩ := affineU32_ok env g x
  obtain ⟨z, hz, ez⟩ := affineU32_ok env f y
  obtain ⟨z', hz', ez'⟩ := affineU32_ok env m x
  have e : z' = z := vec32_inj (by
    rw [ez', ez, ey, eM, eV, mulVec_add, mulVec_mulVec, add_assoc])
  exact ⟨y, z, hy, hz, e ▸ hz'⟩

example : (affinemixM32 exEnv ⟨exA32, 5⟩ ⟨exB32, exX32⟩ ⟨exB32, 1⟩).map (fun m => (m.Mat, m.Vec)) =
    .ok (#v[0xead9bf44, 0x7d5b37ef, 0x4fab66f2, 0xa9f56cc4, 0x753ead90, 0xcea7d58c, 0x79d4faa1, 0xf3a9f25, 0x61e753f9, 0xec3cea4a, 0x1d879d50, 0xe3b0f342, 0xbc761e4e, 0x378ec3a1, 0x6f1d85e, 0xe0de3aec, 0x3c1bc742, 0xc783788b, 0x58f06f32, 0xeb1e0d18, 0xdd63c197, 0x1bac7868, 0xa3758cf1, 0x346eb1b3, 0x868dd60f, 0x70d1ba10, 0x8e1a3727, 0x31c34720, 0x26386886, 0x24c70dd4, 0xa498e1e4, 0x8411389d], 0xafc56316) := by decide +kernel

/-- C19: `affinemixM64 f g` is the composition `f ∘ g`. -/
theorem C19_affinemixM64 (env : Env) (f g m0 : Aff64) :
    ∃ m, affinemixM64 env f g m0 = .ok m ∧
      ∀ (x : BitVec 64), ∃ y z, affineU64 env g x = .ok y ∧
        affineU64 env f y = .ok z ∧ affineU64 env m x = .ok z := by
  obtain ⟨m, hm, eM, eV⟩ := affinemixM64_ok env f g m0
  refine ⟨m, hm, fun x => ?_⟩
  obtain ⟨y, hy, ey⟩ := affineU64_ok env g x
  obtain ⟨z, hz, ez⟩ := affineU64_ok env f y
  obtain ⟨z', hz', ez'⟩ := affineU64_ok env m x
  have e : z' = z := vec64_inj (by
    rw [ez', ez, ey, eM, eV, mulVec_add, mulVec_mulVec, add_assoc])
  exact ⟨y, z, hy, hz, e ▸ hz'⟩

example : ∃ m, affinemixM64 exEnv ⟨exA64, exX64⟩ ⟨exB64, exX64⟩ ⟨exB64, exX64⟩ = .ok m := by
  obtain ⟨m, h, _⟩ := C19_affinemixM64 exEnv ⟨exA64, exX64⟩ ⟨exB64, exX64⟩ ⟨exB64, exX64⟩
  exact ⟨m, h⟩

/-- C19: `affinemixM128 f g` is the composition `f ∘ g`. -/
theorem C19_affinemixM128 (env : Env) (f g m0 : Aff128) :
    ∃ m, affinemixM128 env f g m0 = .ok m ∧
      ∀ (x : Vector (BitVec 64) 2) (z1 z2 z3 : Vector (BitVec 64) 2), ∃ y z, affineU128 env g x z1 = .ok y ∧
        affineU128 env f y z2 = .ok z ∧ affineU128 env m x z3 = .ok z := by
  obtain ⟨m, hm, eM, eV⟩ := affinemixM128_ok env f g m0
  refine ⟨m, hm, fun x z1 z2 z3 => ?_⟩
  obtain ⟨y, hy, ey⟩ := affineU128_ok env g x z1
  obtain ⟨z, hz, ez⟩ := affineU128_ok env f y z2
  obtain ⟨z', hz', ez'⟩ := affineU128_ok env m x z3
  have e : z' = z := vec128_inj (by
    rw [ez', ez, ey, eM, eV, mulVec_add, mulVec_mulVec, add_assoc])
  exact ⟨y, z, hy, hz, e ▸ hz'⟩

example : ∃ m, affinemixM128 exEnv ⟨exA128, exX128⟩ ⟨exB128, exX128⟩ ⟨exB128, exX128⟩ = .ok m := by
  obtain ⟨m, h, _⟩ := C19_affinemixM128 exEnv ⟨exA128, exX128⟩ ⟨exB128, exX128⟩ ⟨exB128, exX128⟩
  exact ⟨m, h⟩

end WB
