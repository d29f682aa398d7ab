import Verif.Prop.C20

/-!
# C21 — concatenated affine maps act blockwise (little endian)
-/
namespace WB
open Matrix

/-- C21: the affine map stored by `affinecomM8to32` acts blockwise. -/
theorem C21_affinecomM8to32 (env : Env) (he : env.endian = .little) (f1 f2 f3 f4 : Aff8)
    (oldF : Aff32) (x1 x2 x3 x4 : V8) (oldX oldY : V32) :
    ∃ F X y1 y2 y3 y4 Y, affinecomM8to32 env f1 f2 f3 f4 oldF = .ok F ∧
      VectorcomV8to32 env x1 x2 x3 x4 oldX = .ok X ∧
      affineU8 env f1 x1 = .ok y1 ∧ affineU8 env f2 x2 = .ok y2 ∧ affineU8 env f3 x3 = .ok y3 ∧ affineU8 env f4 x4 = .ok y4 ∧
      VectorcomV8to32 env y1 y2 y3 y4 oldY = .ok Y ∧
      affineU32 env F X = .ok Y := by
  obtain ⟨F, hF, hM, hV⟩ := C20_affinecomM8to32 env he f1 f2 f3 f4 oldF
  obtain ⟨X, hX, eX⟩ := C20_VectorcomV8to32 env he x1 x2 x3 x4 oldX
  obtain ⟨y1, h1, e1⟩ := affineU8_ok env f1 x1
  obtain ⟨y2, h2, e2⟩ := affineU8_ok env f2 x2
  obtain ⟨y3, h3, e3⟩ := affineU8_ok env f3 x3
  obtain ⟨y4, h4, e4⟩ := affineU8_ok env f4 x4
  obtain ⟨Y, hY, eY⟩ := C20_VectorcomV8to32 env he y1 y2 y3 y4 oldY
  obtain ⟨Z, hZ, eZ⟩ := affineU32_ok env F X
  obtain rfl : Z = Y := vec32_inj (by
    rw [eZ, eY, hM, hV, eX]
    refine (congrArg (· + _) (blockDiag_mulVec (k := 4) (a := 8) _ _)).trans ?_
    rw [e1, e2, e3, e4]
    refine (concatV_add (k := 4) (a := 8) _ _).trans ?_
    congr 1
    funext b; fin_cases b <;> rfl)
  exact ⟨F, X, y1, y2, y3, y4, Z, hF, hX, h1, h2, h3, h4, hY, hZ⟩

example : ∃ F X y1 y2 y3 y4 Y, affinecomM8to32 exEnv ⟨exA8, 0x3⟩ ⟨exB8, 0x4⟩ ⟨exA8, 0x5⟩ ⟨exB8, 0x6⟩ ⟨exB32, exX32⟩ = .ok F ∧
      VectorcomV8to32 exEnv 0x11 0x22 0x33 0x44 exX32 = .ok X ∧
      affineU8 exEnv ⟨exA8, 0x3⟩ 0x11 = .ok y1 ∧ affineU8 exEnv ⟨exB8, 0x4⟩ 0x22 = .ok y2 ∧ affineU8 exEnv ⟨exA8, 0x5⟩ 0x33 = .ok y3 ∧ affineU8 exEnv ⟨exB8, 0x6⟩ 0x44 = .ok y4 ∧
      VectorcomV8to32 exEnv y1 y2 y3 y4 exX32 = .ok Y ∧
      affineU32 exEnv F X = .ok Y :=
  C21_affinecomM8to32 exEnv rfl ⟨exA8, 0x3⟩ ⟨exB8, 0x4⟩ ⟨exA8, 0x5⟩ ⟨exB8, 0x6⟩ ⟨exB32, exX32⟩ 0x11 0x22 0x33 0x44 exX32 exX32

/-- C21: the affine map stored by `affinecomM16to64` acts blockwise. -/
theorem C21_affinecomM16to64 (env : Env) (he : env.endian = .little) (f1 f2 f3 f4 : Aff16)
    (oldF : Aff64) (x1 x2 x3 x4 : V16) (oldX oldY : V64) :
    ∃ F X y1 y2 y3 y4 Y, affinecomM16to64 env f1 f2 f3 f4 oldF = .ok F ∧
      VectorcomV16to64 env x1 x2 x3 x4 oldX = .ok X ∧
      affineU16 env f1 x1 = .ok y1 ∧ affineU16 env f2 x2 = .ok y2 ∧ affineU16 env f3 x3 = .ok y3 ∧ affineU16 env f4 x4 = .ok y4 ∧
      VectorcomV16to64 env y1 y2 y3 y4 oldY = .ok Y ∧
      affineU64 env F X = .ok Y := by
  obtain ⟨F, hF, hM, hV⟩ := C20_affinecomM16to64 env he f1 f2 f3 f4 oldF
  obtain ⟨X, hX, eX⟩ := C20_VectorcomV16to64 env he x1 x2 x3 x4 oldX
  obtain ⟨y1, h1, e1⟩ := affineU16_ok env f1 x1
  obtain ⟨y2, h2, e2⟩ := affineU16_ok env f2 x2
  obtain ⟨y3, h3, e3⟩ := affineU16_ok env f3 x3
  obtain ⟨y4, h4, e4⟩ := affineU16_ok env f4 x4
  obtain ⟨Y, hY, eY⟩ := C20_VectorcomV16to64 env he y1 y2 y3 y4 oldY
  obtain ⟨Z, hZ, eZ⟩ := affineU64_ok env F X
  obtain rfl : Z = Y := vec64_inj (by
    rw [eZ, eY, hM, hV, eX]
    refine (congrArg (· + _) (blockDiag_mulVec (k := 4) (a := 16) _ _)).trans ?_
    rw [e1, e2, e3, e4]
    refine (concatV_add (k := 4) (a := 16) _ _).trans ?_
    congr 1
    funext b; fin_cases b <;> rfl)
  exact ⟨F, X, y1, y2, y3, y4, Z, hF, hX, h1, h2, h3, h4, hY, hZ⟩

example : ∃ F X y1 y2 y3 y4 Y, affinecomM16to64 exEnv ⟨exA16, 0x3⟩ ⟨exB16, 0x4⟩ ⟨exA16, 0x5⟩ ⟨exB16, 0x6⟩ ⟨exB64, exX64⟩ = .ok F ∧
      VectorcomV16to64 exEnv 0x11 0x22 0x33 0x44 exX64 = .ok X ∧
      affineU16 exEnv ⟨exA16, 0x3⟩ 0x11 = .ok y1 ∧ affineU16 exEnv ⟨exB16, 0x4⟩ 0x22 = .ok y2 ∧ affineU16 exEnv ⟨exA16, 0x5⟩ 0x33 = .ok y3 ∧ affineU16 exEnv ⟨exB16, 0x6⟩ 0x44 = .ok y4 ∧
      VectorcomV16to64 exEnv y1 y2 y3 y4 exX64 = .ok Y ∧
      affineU64 exEnv F X = .ok Y :=
  C21_affinecomM16to64 exEnv rfl ⟨exA16, 0x3⟩ ⟨exB16, 0x4⟩ ⟨exA16, 0x5⟩ ⟨exB16, 0x6⟩ ⟨exB64, exX64⟩ 0x11 0x22 0x33 0x44 exX64 exX64

/-- C21: the affine map stored by `affinecomM8to64` acts blockwise. -/
theorem C21_affinecomM8to64 (env : Env) (he : env.endian = .little) (f1 f2 f3 f4 f5 f6 f7 f8 : Aff8)
    (oldF : Aff64) (x1 x2 x3 x4 x5 x6 x7 x8 : V8) (oldX oldY : V64) :
    ∃ F X y1 y2 y3 y4 y5 y6 y7 y8 Y, affinecomM8to64 env f1 f2 f3 f4 f5 f6 f7 f8 oldF = .ok F ∧
      VectorcomV8to64 env x1 x2 x3 x4 x5 x6 x7 x8 oldX = .ok X ∧
      affineU8 env f1 x1 = .ok y1 ∧ affineU8 env f2 x2 = .ok y2 ∧ affineU8 env f3 x3 = .ok y3 ∧ affineU8 env f4 x4 = .ok y4 ∧ affineU8 env f5 x5 = .ok y5 ∧ affineU8 env f6 x6 = .ok y6 ∧ affineU8 env f7 x7 = .ok y7 ∧ affineU8 env f8 x8 = .ok y8 ∧
      VectorcomV8to64 env y1 y2 y3 y4 y5 y6 y7 y8 oldY = .ok Y ∧
      affineU64 env F X = .ok Y := by
  obtain ⟨F, hF, hM, hV⟩ := C20_affinecomM8to64 env he f1 f2 f3 f4 f5 f6 f7 f8 oldF
  obtain ⟨X, hX, eX⟩ := C20_VectorcomV8to64 env he x1 x2 x3 x4 x5 x6 x7 x8 oldX
  obtain ⟨y1, h1, e1⟩ := affineU8_ok env f1 x1
  obtain ⟨y2, h2, e2⟩ := affineU8_ok env f2 x2
  obtain ⟨y3, h3, e3⟩ := affineU8_ok env f3 x3
  obtain ⟨y4, h4, e4⟩ := affineU8_ok env f4 x4
  obtain ⟨y5, h5, e5⟩ := affineU8_ok env f5 x5
  obtain ⟨y6, h6, e6⟩ := affineU8_ok env f6 x6
  obtain ⟨y7, h7, e7⟩ := affineU8_ok env f7 x7
  obtain ⟨y8, h8, e8⟩ := affineU8_ok env f8 x8
  obtain ⟨Y, hY, eY⟩ := C20_VectorcomV8to64 env he y1 y2 y3 y4 y5 y6 y7 y8 oldY
  obtain ⟨Z, hZ, eZ⟩ := affineU64_ok env F X
  obtain rfl : Z = Y := vec64_inj (by
    rw [eZ, eY, hM, hV, eX]
    refine (congrArg (· + _) (blockDiag_mulVec (k := 8) (a := 8) _ _)).trans ?_
    rw [e1, e2, e3, e4, e5, e6, e7, e8]
    refine (concatV_add (k := 8) (a := 8) _ _).trans ?_
    congr 1
    funext b; fin_cases b <;> rfl)
  exact ⟨F, X, y1, y2, y3, y4, y5, y6, y7, y8, Z, hF, hX, h1, h2, h3, h4, h5, h6, h7, h8, hY, hZ⟩

example : ∃ F X y1 y2 y3 y4 y5 y6 y7 y8 Y, affinecomM8to64 exEnv ⟨exA8, 0x3⟩ ⟨exB8, 0x4⟩ ⟨exA8, 0x5⟩ ⟨exB8, 0x6⟩ ⟨exA8, 0x7⟩ ⟨exB8, 0x8⟩ ⟨exA8, 0x9⟩ ⟨exB8, 0xa⟩ ⟨exB64, exX64⟩ = .ok F ∧
      VectorcomV8to64 exEnv 0x11 0x22 0x33 0x44 0x55 0x66 0x77 0x88 exX64 = .ok X ∧
      affineU8 exEnv ⟨exA8, 0x3⟩ 0x11 = .ok y1 ∧ affineU8 exEnv ⟨exB8, 0x4⟩ 0x22 = .ok y2 ∧ affineU8 exEnv ⟨exA8, 0x5⟩ 0x33 = .ok y3 ∧ affineU8 exEnv ⟨exB8, 0x6⟩ 0x44 = .ok y4 ∧ affineU8 exEnv ⟨exA8, 0x7⟩ 0x55 = .ok y5 ∧ affineU8 exEnv ⟨exB8, 0x8⟩ 0x66 = .ok y6 ∧ affineU8 exEnv ⟨exA8, 0x9⟩ 0x77 = .ok y7 ∧ affineU8 exEnv ⟨exB8, 0xa⟩ 0x88 = .ok y8 ∧
      VectorcomV8to64 exEnv y1 y2 y3 y4 y5 y6 y7 y8 exX64 = .ok Y ∧
      affineU64 exEnv F X = .ok Y :=
  C21_affinecomM8to64 exEnv rfl ⟨exA8, 0x3⟩ ⟨exB8, 0x4⟩ ⟨exA8, 0x5⟩ ⟨exB8, 0x6⟩ ⟨exA8, 0x7⟩ ⟨exB8, 0x8⟩ ⟨exA8, 0x9⟩ ⟨exB8, 0xa⟩ ⟨exB64, exX64⟩ 0x11 0x22 0x33 0x44 0x55 0x66 0x77 0x88 exX64 exX64

/-- C21: the affine map stored by `affinecomM32to128` acts blockwise. -/
theorem C21_affinecomM32to128 (env : Env) (he : env.endian = .little) (f1 f2 f3 f4 : Aff32)
    (oldF : Aff128) (x1 x2 x3 x4 : V32) (oldX oldY o : V128) :
    ∃ F X y1 y2 y3 y4 Y, affinecomM32to128 env f1 f2 f3 f4 oldF = .ok F ∧
      VectorcomV32to128 env x1 x2 x3 x4 oldX = .ok X ∧
      affineU32 env f1 x1 = .ok y1 ∧ affineU32 env f2 x2 = .ok y2 ∧ affineU32 env f3 x3 = .ok y3 ∧ affineU32 env f4 x4 = .ok y4 ∧
      VectorcomV32to128 env y1 y2 y3 y4 oldY = .ok Y ∧
      affineU128 env F X o = .ok Y := by
  obtain ⟨F, hF, hM, hV⟩ := C20_affinecomM32to128 env he f1 f2 f3 f4 oldF
  obtain ⟨X, hX, eX⟩ := C20_VectorcomV32to128 env he x1 x2 x3 x4 oldX
  obtain ⟨y1, h1, e1⟩ := affineU32_ok env f1 x1
  obtain ⟨y2, h2, e2⟩ := affineU32_ok env f2 x2
  obtain ⟨y3, h3, e3⟩ := affineU32_ok env f3 x3
  obtain ⟨y4, h4, e4⟩ := affineU32_ok env f4 x4
  obtain ⟨Y, hY, eY⟩ := C20_VectorcomV32to128 env he y1 y2 y3 y4 oldY
  obtain ⟨Z, hZ, eZ⟩ := affineU128_ok env F X o
  obtain rfl : Z = Y := vec128_inj (by
    rw [eZ, eY, hM, hV, eX]
    refine (congrArg (· + _) (blockDiag_mulVec (k := 4) (a := 32) _ _)).trans ?_
    rw [e1, e2, e3, e4]
    refine (concatV_add (k := 4) (a := 32) _ _).trans ?_
    congr 1
    funext b; fin_cases b <;> rfl)
  exact ⟨F, X, y1, y2, y3, y4, Z, hF, hX, h1, h2, h3, h4, hY, hZ⟩

example : ∃ F X y1 y2 y3 y4 Y, affinecomM32to128 exEnv ⟨exA32, 0x3⟩ ⟨exB32, 0x4⟩ ⟨exA32, 0x5⟩ ⟨exB32, 0x6⟩ ⟨exB128, exX128⟩ = .ok F ∧
      VectorcomV32to128 exEnv 0x11 0x22 0x33 0x44 exX128 = .ok X ∧
      affineU32 exEnv ⟨exA32, 0x3⟩ 0x11 = .ok y1 ∧ affineU32 exEnv ⟨exB32, 0x4⟩ 0x22 = .ok y2 ∧ affineU32 exEnv ⟨exA32, 0x5⟩ 0x33 = .ok y3 ∧ affineU32 exEnv ⟨exB32, 0x6⟩ 0x44 = .ok y4 ∧
      VectorcomV32to128 exEnv y1 y2 y3 y4 exX128 = .ok Y ∧
      affineU128 exEnv F X exX128 = .ok Y :=
  C21_affinecomM32to128 exEnv rfl ⟨exA32, 0x3⟩ ⟨exB32, 0x4⟩ ⟨exA32, 0x5⟩ ⟨exB32, 0x6⟩ ⟨exB128, exX128⟩ 0x11 0x22 0x33 0x44 exX128 exX128 exX128

/-- C21: the affine map stored by `affinecomM8to128` acts blockwise. -/
theorem C21_affinecomM8to128 (env : Env) (he : env.endian = .little) (f1 f2 f3 f4 f5 f6 f7 f8 f9 f10 f11 f12 f13 f14 f15 f16 : Aff8)
    (oldF : Aff128) (x1 x2 x3 x4 x5 x6 x7 x8 x9 x10 x11 x12 x13 x14 x15 x16 : V8) (oldX oldY o : V128) :
    ∃ F X y1 y2 y3 y4 y5 y6 y7 y8 y9 y10 y11 y12 y13 y14 y15 y16 Y, affinecomM8to128 env f1 f2 f3 f4 f5 f6 f7 f8 f9 f10 f11 f12 f13 f14 f15 f16 oldF = .ok F ∧
      VectorcomV8to128 env x1 x2 x3 x4 x5 x6 x7 x8 x9 x10 x11 x12 x13 x14 x15 x16 oldX = .ok X ∧
      affineU8 env f1 x1 = .ok y1 ∧ affineU8 env f2 x2 = .ok y2 ∧ affineU8 env f3 x3 = .ok y3 ∧ affineU8 env f4 x4 = .ok y4 ∧ affineU8 env f5 x5 = .ok y5 ∧ affineU8 env f6 x6 = .ok y6 ∧ affineU8 env f7 x7 = .ok y7 ∧ affineU8 env f8 x8 = .ok y8 ∧ affineU8 env f9 x9 = .ok y9 ∧ affineU8 env f10 x10 = .ok y10 ∧ affineU8 env f11 x11 = .ok y11 ∧ affineU8 env f12 x12 = .ok y12 ∧ affineU8 env f13 x13 = .ok y13 ∧ affineU8 env f14 x14 = .ok y14 ∧ affineU8 env f15 x15 = .ok y15 ∧ affineU8 env f16 x16 = .ok y16 ∧
      VectorcomV8to128 env y1 y2 y3 y4 y5 y6 y7 y8 y9 y10 y11 y12 y13 y14 y15 y16 oldY = .ok Y ∧
      affineU128 env F X o = .ok Y := by
  obtain ⟨F, hF, hM, hV⟩ := C20_affinecomM8to128 env he f1 f2 f3 f4 f5 f6 f7 f8 f9 f10 f11 f12 f13 f14 f15 f16 oldF
  obtain ⟨X, hX, eX⟩ := C20_VectorcomV8to128 env he x1 x2 x3 x4 x5 x6 x7 x8 x9 x10 x11 x12 x13 x14 x15 x16 oldX
  obtain ⟨y1, h1, e1⟩ := affineU8_ok env f1 x1
  obtain ⟨y2, h2, e2⟩ := affineU8_ok env f2 x2
  obtain ⟨y3, h3, e3⟩ := affineU8_ok env f3 x3
  obtain ⟨y4, h4, e4⟩ := affineU8_ok env f4 x4
  obtain ⟨y5, h5, e5⟩ := affineU8_ok env f5 x5
  obtain ⟨y6, h6, e6⟩ := affineU8_ok env f6 x6
  obtain ⟨y7, h7, e7⟩ := affineU8_ok env f7 x7
  obtain ⟨y8, h8, e8⟩ := affineU8_ok env f8 x8
  obtain ⟨y9, h9, e9⟩ := affineU8_ok env f9 x9
  obtain ⟨y10, h10, e10⟩ := affineU8_ok env f10 x10
  obtain ⟨y11, h11, e11⟩ := affineU8_ok env f11 x11
  obtain ⟨y12, h12, e12⟩ := affineU8_ok env f12 x12
  obtain ⟨y13, h13, e13⟩ := affineU8_ok env f13 x13
  obtain ⟨y14, h14, e14⟩ := affineU8_ok env f14 x14
  obtain ⟨y15, h15, e15⟩ := affineU8_ok env f15 x15
  obtain ⟨y16, h16, e16⟩ := affineU8_ok env f16 x16
  obtain ⟨Y, hY, eY⟩ := C20_VectorcomV8to128 env he y1 y2 y3 y4 y5 y6 y7 y8 y9 y10 y11 y12 y13 y14 y15 y16 oldY
  obtain ⟨Z, hZ, eZ⟩ := affineU128_ok env F X o
  obtain rfl : Z = Y := vec128_inj (by
    rw [eZ, eY, hM, hV, eX]
    refine (congrArg (· + _) (blockDiag_mulVec (k := 16) (a := 8) _ _)).trans ?_
    rw [e1, e2, e3, e4, e5, e6, e7, e8, e9, e10, e11, e12, e13, e14, e15, e16]
    refine (concatV_add (k := 16) (a := 8) _ _).trans ?_
    congr 1
    funext b; fin_cases b <;> rfl)
  exact ⟨F, X, y1, y2, y3, y4, y5, y6, y7, y8, y9, y10, y11, y12, y13, y14, y15, y16, Z, hF, hX, h1, h2, h3, h4, h5, h6, h7, h8, h9, h10, h11, h12, h13, h14, h15, h16, hY, hZ⟩

example : ∃ F X y1 y2 y3 y4 y5 y6 y7 y8 y9 y10 y11 y12 y13 y14 y15 y16 Y, affinecomM8to128 exEnv ⟨exA8, 0x3⟩ ⟨exB8, 0x4⟩ ⟨exA8, 0x5⟩ ⟨exB8, 0x6⟩ ⟨exA8, 0x7⟩ ⟨exB8, 0x8⟩ ⟨exA8, 0x9⟩ ⟨exB8, 0xa⟩ ⟨exA8, 0xb⟩ ⟨exB8, 0xc⟩ ⟨exA8, 0xd⟩ ⟨exB8, 0xe⟩ ⟨exA8, 0xf⟩ ⟨exB8, 0x10⟩ ⟨exA8, 0x11⟩ ⟨exB8, 0x12⟩ ⟨exB128, exX128⟩ = .ok F ∧
      VectorcomV8to128 exEnv 0x11 0x22 0x33 0x44 0x55 0x66 0x77 0x88 0x99 0xaa 0xbb 0xcc 0xdd 0xee 0xff 0x110 exX128 = .ok X ∧
      affineU8 exEnv ⟨exA8, 0x3⟩ 0x11 = .ok y1 ∧ affineU8 exEnv ⟨exB8, 0x4⟩ 0x22 = .ok y2 ∧ affineU8 exEnv ⟨exA8, 0x5⟩ 0x33 = .ok y3 ∧ affineU8 exEnv ⟨exB8, 0x6⟩ 0x44 = .ok y4 ∧ affineU8 exEnv ⟨exA8, 0x7⟩ 0x55 = .ok y5 ∧ affineU8 exEnv ⟨exB8, 0x8⟩ 0x66 = .ok y6 ∧ affineU8 exEnv ⟨exA8, 0x9⟩ 0x77 = .ok y7 ∧ affineU8 exEnv ⟨exB8, 0xa⟩ 0x88 = .ok y8 ∧ affineU8 exEnv ⟨exA8, 0xb⟩ 0x99 = .ok y9 ∧ affineU8 exEnv ⟨exB8, 0xc⟩ 0xaa = .ok y10 ∧ affineU8 exEnv ⟨exA8, 0xd⟩ 0xbb = .ok y11 ∧ affineU8 exEnv ⟨exB8, 0xe⟩ 0xcc = .ok y12 ∧ affineU8 exEnv ⟨exA8, 0xf⟩ 0xdd = .ok y13 ∧ affineU8 exEnv ⟨exB8, 0x10⟩ 0xee = .ok y14 ∧ affineU8 exEnv ⟨exA8, 0x11⟩ 0xff = .ok y15 ∧ affineU8 exEnv ⟨exB8, 0x12⟩ 0x110 = .ok y16 ∧
      VectorcomV8to128 exEnv y1 y2 y3 y4 y5 y6 y7 y8 y9 y10 y11 y12 y13 y14 y15 y16 exX128 = .ok Y ∧
      affineU128 exEnv F X exX128 = .ok Y :=
  C21_affinecomM8to128 exEnv rfl ⟨exA8, 0x3⟩ ⟨exB8, 0x4⟩ ⟨exA8, 0x5⟩ ⟨exB8, 0x6⟩ ⟨exA8, 0x7⟩ ⟨exB8, 0x8⟩ ⟨exA8, 0x9⟩ ⟨exB8, 0xa⟩ ⟨exA8, 0xb⟩ ⟨exB8, 0xc⟩ ⟨exA8, 0xd⟩ ⟨exB8, 0xe⟩ ⟨exA8, 0xf⟩ ⟨exB8, 0x10⟩ ⟨exA8, 0x11⟩ ⟨exB8, 0x12⟩ ⟨exB128, exX128⟩ 0x11 0x22 0x33 0x44 0x55 0x66 0x77 0x88 0x99 0xaa 0xbb 0xcc 0xdd 0xee 0xff 0x110 exX128 exX128 exX128

/-- C21: the affine map stored by `affinecomM16to128` acts blockwise. -/
theorem C21_affinecomM16to128 (env : Env) (he : env.endian = .little) (f1 f2 f3 f4 f5 f6 f7 f8 : Aff16)
    (oldF : Aff128) (x1 x2 x3 x4 x5 x6 x7 x8 : V16) (oldX oldY o : V128) :
    ∃ F X y1 y2 y3 y4 y5 y6 y7 y8 Y, affinecomM16to128 env f1 f2 f3 f4 f5 f6 f7 f8 oldF = .ok F ∧
      VectorcomV16to128 env x1 x2 x3 x4 x5 x6 x7 x8 oldX = .ok X ∧
      affineU16 env f1 x1 = .ok y1 ∧ affineU16 env f2 x2 = .ok y2 ∧ affineU16 env f3 x3 = .ok y3 ∧ affineU16 env f4 x4 = .ok y4 ∧ affineU16 env f5 x5 = .ok y5 ∧ affineU16 env f6 x6 = .ok y6 ∧ affineU16 env f7 x7 = .ok y7 ∧ affineU16 env f8 x8 = .ok y8 ∧
      VectorcomV16to128 env y1 y2 y3 y4 y5 y6 y7 y8 oldY = .ok Y ∧
      affineU128 env F X o = .ok Y := by
  obtain ⟨F, hF, hM, hV⟩ := C20_affinecomM16to128 env he f1 f2 f3 f4 f5 f6 f7 f8 oldF
  obtain ⟨X, hX, eX⟩ := C20_VectorcomV16to128 env he x1 x2 x3 x4 x5 x6 x7 x8 oldX
  obtain ⟨y1, h1, e1⟩ := affineU16_ok env f1 x1
  obtain ⟨y2, h2, e2⟩ := affineU16_ok env f2 x2
  obtain ⟨y3, h3, e3⟩ := affineU16_ok env f3 x3
  obtain ⟨y4, h4, e4⟩ := affineU16_ok env f4 x4
  obtain ⟨y5, h5, e5⟩ := affineU16_ok env f5 x5
  obtain ⟨y6, h6, e6⟩ := affineU16_ok env f6 x6
  obtain ⟨y7, h7, e7⟩ := affineU16_ok env f7 x7
  obtain ⟨y8, h8, e8⟩ := affineU16_ok env f8 x8
  obtain ⟨Y, hY, eY⟩ := C20_VectorcomV16to128 env he y1 y2 y3 y4 y5 y6 y7 y8 oldY
  obtain ⟨Z, hZ, eZ⟩ := affineU128_ok env F X o
  obtain rfl : Z = Y := vec128_inj (by
    rw [eZ, eY, hM, hV, eX]
    refine (congrArg (· + _) (blockDiag_mulVec (k := 8) (a := 16) _ _)).trans ?_
    rw [e1, e2, e3, e4, e5, e6, e7, e8]
    refine (concatV_add (k := 8) (a := 16) _ _).trans ?_
    congr 1
    funext b; fin_cases b <;> rfl)
  exact ⟨F, X, y1, y2, y3, y4, y5, y6, y7, y8, Z, hF, hX, h1, h2, h3, h4, h5, h6, h7, h8, hY, hZ⟩

example : ∃ F X y1 y2 y3 y4 y5 y6 y7 y8 Y, affinecomM16to128 exEnv ⟨exA16, 0x3⟩ ⟨exB16, 0x4⟩ ⟨exA16, 0x5⟩ ⟨exB16, 0x6⟩ ⟨exA16, 0x7⟩ ⟨exB16, 0x8⟩ ⟨exA16, 0x9⟩ ⟨exB16, 0xa⟩ ⟨exB128, exX128⟩ = .ok F ∧
      VectorcomV16to128 exEnv 0x11 0x22 0x33 0x44 0x55 0x66 0x77 0x88 exX128 = .ok X ∧
      affineU16 exEnv ⟨exA16, 0x3⟩ 0x11 = .ok y1 ∧ affineU16 exEnv ⟨exB16, 0x4⟩ 0x22 = .ok y2 ∧ affineU16 exEnv ⟨exA16, 0x5⟩ 0x33 = .ok y3 ∧ affineU16 exEnv ⟨exB16, 0x6⟩ 0x44 = .ok y4 ∧ affineU16 exEnv ⟨exA16, 0x7⟩ 0x55 = .ok y5 ∧ affineU16 exEnv ⟨exB16, 0x8⟩ 0x66 = .ok y6 ∧ affineU16 exEnv ⟨exA16, 0x9⟩ 0x77 = .ok y7 ∧ affineU16 exEnv ⟨exB16, 0xa⟩ 0x88 = .ok y8 ∧
      VectorcomV16to128 exEnv y1 y2 y3 y4 y5 y6 y7 y8 exX128 = .ok Y ∧
      affineU128 exEnv F X exX128 = .ok Y :=
  C21_affinecomM16to128 exEnv rfl ⟨exA16, 0x3⟩ ⟨exB16, 0x4⟩ ⟨exA16, 0x5⟩ ⟨exB16, 0x6⟩ ⟨exA16, 0x7⟩ ⟨exB16, 0x8⟩ ⟨exA16, 0x9⟩ ⟨exB16, 0xa⟩ ⟨exB128, exX128⟩ 0x11 0x22 0x33 0x44 0x55 0x66 0x77 0x88 exX128 exX128 exX128

end WB
