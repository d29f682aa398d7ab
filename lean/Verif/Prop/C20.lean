import Verif.Proof.Com
import Verif.Prop.Examples

/-!
# C20 — concatenation is block diagonal (little endian)
-/
namespace WB
open Matrix

/-- C20: `MatrixcomM8to32` stores the block-diagonal matrix of its arguments. -/
theorem C20_MatrixcomM8to32 (env : Env) (he : env.endian = .little) (m1 m2 m3 m4 : M8) (old : M32) :
    ∃ M, MatrixcomM8to32 env m1 m2 m3 m4 old = .ok M ∧
      mat32 M = blockDiag (k := 4) (a := 8) ![mat8 m1, mat8 m2, mat8 m3, mat8 m4] := by
  obtain ⟨M, h, hM⟩ := MatrixcomM8to32_gen env m1 m2 m3 m4 old
  refine ⟨M, h, ?_⟩
  rw [blk_le (k := 4) (a := 8) env he ![m1, m2, m3, m4] (mat32 M) hM]
  congr 1
  funext b; fin_cases b <;> rfl

/-- C20: `VectorcomV8to32` stores the concatenation of its arguments. -/
theorem C20_VectorcomV8to32 (env : Env) (he : env.endian = .little) (v1 v2 v3 v4 : V8) (old : V32) :
    ∃ X, VectorcomV8to32 env v1 v2 v3 v4 old = .ok X ∧
      vec32 X = concatV (k := 4) (a := 8) ![vec8 v1, vec8 v2, vec8 v3, vec8 v4] := by
  obtain ⟨X, h, hX⟩ := VectorcomV8to32_gen env v1 v2 v3 v4 old
  refine ⟨X, h, ?_⟩
  rw [vec_le (k := 4) (a := 8) env he ![v1, v2, v3, v4] (vec32 X) hX]
  congr 1
  funext b; fin_cases b <;> rfl

/-- C20: `affinecomM8to32` does both. -/
theorem C20_affinecomM8to32 (env : Env) (he : env.endian = .little) (f1 f2 f3 f4 : Aff8) (old : Aff32) :
    ∃ F, affinecomM8to32 env f1 f2 f3 f4 old = .ok F ∧
      mat32 F.Mat = blockDiag (k := 4) (a := 8) ![mat8 f1.Mat, mat8 f2.Mat, mat8 f3.Mat, mat8 f4.Mat] ∧
      vec32 F.Vec = concatV (k := 4) (a := 8) ![vec8 f1.Vec, vec8 f2.Vec, vec8 f3.Vec, vec8 f4.Vec] := by
  obtain ⟨M, h, hM⟩ := C20_MatrixcomM8to32 env he f1.Mat f2.Mat f3.Mat f4.Mat old.Mat
  obtain ⟨X, g, hX⟩ := C20_VectorcomV8to32 env he f1.Vec f2.Vec f3.Vec f4.Vec old.Vec
  refine ⟨⟨M, X⟩, ?_, hM, hX⟩
  unfold affinecomM8to32
  rw [h, C_pure_bind, g, C_pure_bind]
  rfl

example : VectorcomV8to32 exEnv 0x11 0x22 0x33 0x44 exX32 = .ok 0x11223344 := by decide +kernel
example : ∃ M, MatrixcomM8to32 exEnv exA8 exB8 exA8 exB8 exB32 = .ok M ∧
    mat32 M = blockDiag (k := 4) (a := 8) ![mat8 exA8, mat8 exB8, mat8 exA8, mat8 exB8] :=
  C20_MatrixcomM8to32 exEnv rfl exA8 exB8 exA8 exB8 exB32

/-- C20: `MatrixcomM16to64` stores the block-diagonal matrix of its arguments. -/
theorem C20_MatrixcomM16to64 (env : Env) (he : env.endian = .little) (m1 m2 m3 m4 : M16) (old : M64) :
    ∃ M, MatrixcomM16to64 env m1 m2 m3 m4 old = .ok M ∧
      mat64 M = blockDiag (k := 4) (a := 16) ![mat16 m1, mat16 m2, mat16 m3, mat16 m4] := by
  obtain ⟨M, h, hM⟩ := MatrixcomM16to64_gen env m1 m2 m3 m4 old
  refine ⟨M, h, ?_⟩
  rw [blk_le (k := 4) (a := 16) env he ![m1, m2, m3, m4] (mat64 M) hM]
  congr 1
  funext b; fin_cases b <;> rfl

/-- C20: `VectorcomV16to64` stores the concatenation of its arguments. -/
theorem C20_VectorcomV16to64 (env : Env) (he : env.endian = .little) (v1 v2 v3 v4 : V16) (old : V64) :
    ∃ X, VectorcomV16to64 env v1 v2 v3 v4 old = .ok X ∧
      vec64 X = concatV (k := 4) (a := 16) ![vec16 v1, vec16 v2, vec16 v3, vec16 v4] := by
  obtain ⟨X, h, hX⟩ := VectorcomV16to64_gen env v1 v2 v3 v4 old
  refine ⟨X, h, ?_⟩
  rw [vec_le (k := 4) (a := 16) env he ![v1, v2, v3, v4] (vec64 X) hX]
  congr 1
  funext b; fin_cases b <;> rfl

/-- C20: `affinecomM16to64` does both. -/
theorem C20_affinecomM16to64 (env : Env) (he : env.endian = .little) (f1 f2 f3 f4 : Aff16) (old : Aff64) :
    ∃ F, affinecomM16to64 env f1 f2 f3 f4 old = .ok F ∧
      mat64 F.Mat = blockDiag (k := 4) (a := 16) ![mat16 f1.Mat, mat16 f2.Mat, mat16 f3.Mat, mat16 f4.Mat] ∧
      vec64 F.Vec = concatV (k := 4) (a := 16) ![vec16 f1.Vec, vec16 f2.Vec, vec16 f3.Vec, vec16 f4.Vec] := by
  obtain ⟨M, h, hM⟩ := C20_MatrixcomM16to64 env he f1.Mat f2.Mat f3.Mat f4.Mat old.Mat
  obtain ⟨X, g, hX⟩ := C20_VectorcomV16to64 env he f1.Vec f2.Vec f3.Vec f4.Vec old.Vec
  refine ⟨⟨M, X⟩, ?_, hM, hX⟩
  unfold affinecomM16to64
  rw [h, C_pure_bind, g, C_pure_bind]
  rfl

example : VectorcomV16to64 exEnv 0x11 0x22 0x33 0x44 exX64 = .ok 0x11002200330044 := by decide +kernel
example : ∃ M, MatrixcomM16to64 exEnv exA16 exB16 exA16 exB16 exB64 = .ok M ∧
    mat64 M = blockDiag (k := 4) (a := 16) ![mat16 exA16, mat16 exB16, mat16 exA16, mat16 exB16] :=
  C20_MatrixcomM16to64 exEnv rfl exA16 exB16 exA16 exB16 exB64

/-- C20: `MatrixcomM8to64` stores the block-diagonal matrix of its arguments. -/
theorem C20_MatrixcomM8to64 (env : Env) (he : env.endian = .little) (m1 m2 m3 m4 m5 m6 m7 m8 : M8) (old : M64) :
    ∃ M, MatrixcomM8to64 env m1 m2 m3 m4 m5 m6 m7 m8 old = .ok M ∧
      mat64 M = blockDiag (k := 8) (a := 8) ![mat8 m1, mat8 m2, mat8 m3, mat8 m4, mat8 m5, mat8 m6, mat8 m7, mat8 m8] := by
  obtain ⟨M, h, hM⟩ := MatrixcomM8to64_gen env m1 m2 m3 m4 m5 m6 m7 m8 old
  refine ⟨M, h, ?_⟩
  rw [blk_le (k := 8) (a := 8) env he ![m1, m2, m3, m4, m5, m6, m7, m8] (mat64 M) hM]
  congr 1
  funext b; fin_cases b <;> rfl

/-- C20: `VectorcomV8to64` stores the concatenation of its arguments. -/
theorem C20_VectorcomV8to64 (env : Env) (he : env.endian = .little) (v1 v2 v3 v4 v5 v6 v7 v8 : V8) (old : V64) :
    ∃ X, VectorcomV8to64 env v1 v2 v3 v4 v5 v6 v7 v8 old = .ok X ∧
      vec64 X = concatV (k := 8) (a := 8) ![vec8 v1, vec8 v2, vec8 v3, vec8 v4, vec8 v5, vec8 v6, vec8 v7, vec8 v8] := by
  obtain ⟨X, h, hX⟩ := VectorcomV8to64_gen env v1 v2 v3 v4 v5 v6 v7 v8 old
  refine ⟨X, h, ?_⟩
  rw [vec_le (k := 8) (a := 8) env he ![v1, v2, v3, v4, v5, v6, v7, v8] (vec64 X) hX]
  congr 1
  funext b; fin_cases b <;> rfl

/-- C20: `affinecomM8to64` does both. -/
theorem C20_affinecomM8to64 (env : Env) (he : env.endian = .little) (f1 f2 f3 f4 f5 f6 f7 f8 : Aff8) (old : Aff64) :
    ∃ F, affinecomM8to64 env f1 f2 f3 f4 f5 f6 f7 f8 old = .ok F ∧
      mat64 F.Mat = blockDiag (k := 8) (a := 8) ![mat8 f1.Mat, mat8 f2.Mat, mat8 f3.Mat, mat8 f4.Mat, mat8 f5.Mat, mat8 f6.Mat, mat8 f7.Mat, mat8 f8.Mat] ∧
      vec64 F.Vec = concatV (k := 8) (a := 8) ![vec8 f1.Vec, vec8 f2.Vec, vec8 f3.Vec, vec8 f4.Vec, vec8 f5.Vec, vec8 f6.Vec, vec8 f7.Vec, vec8 f8.Vec] := by
  obtain ⟨M, h, hM⟩ := C20_MatrixcomM8to64 env he f1.Mat f2.Mat f3.Mat f4.Mat f5.Mat f6.Mat f7.Mat f8.Mat old.Mat
  obtain ⟨X, g, hX⟩ := C20_VectorcomV8to64 env he f1.Vec f2.Vec f3.Vec f4.Vec f5.Vec f6.Vec f7.Vec f8.Vec old.Vec
  refine ⟨⟨M, X⟩, ?_, hM, hX⟩
  unfold affinecomM8to64
  rw [h, C_pure_bind, g, C_pure_bind]
  rfl

example : VectorcomV8to64 exEnv 0x11 0x22 0x33 0x44 0x55 0x66 0x77 0x88 exX64 = .ok 0x1122334455667788 := by decide +kernel
example : ∃ M, MatrixcomM8to64 exEnv exA8 exB8 exA8 exB8 exA8 exB8 exA8 exB8 exB64 = .ok M ∧
    mat64 M = blockDiag (k := 8) (a := 8) ![mat8 exA8, mat8 exB8, mat8 exA8, mat8 exB8, mat8 exA8, mat8 exB8, mat8 exA8, mat8 exB8] :=
  C20_MatrixcomM8to64 exEnv rfl exA8 exB8 exA8 exB8 exA8 exB8 exA8 exB8 exB64

/-- C20: `MatrixcomM32to128` stores the block-diagonal matrix of its arguments. -/
theorem C20_MatrixcomM32to128 (env : Env) (he : env.endian = .little) (m1 m2 m3 m4 : M32) (old : M128) :
    ∃ M, MatrixcomM32to128 env m1 m2 m3 m4 old = .ok M ∧
      mat128 M = blockDiag (k := 4) (a := 32) ![mat32 m1, mat32 m2, mat32 m3, mat32 m4] := by
  obtain ⟨M, h, hM⟩ := MatrixcomM32to128_gen env m1 m2 m3 m4 old
  refine ⟨M, h, ?_⟩
  rw [blk_le (k := 4) (a := 32) env he ![m1, m2, m3, m4] (mat128 M) hM]
  congr 1
  funext b; fin_cases b <;> rfl

/-- C20: `VectorcomV32to128` stores the concatenation of its arguments. -/
theorem C20_VectorcomV32to128 (env : Env) (he : env.endian = .little) (v1 v2 v3 v4 : V32) (old : V128) :
    ∃ X, VectorcomV32to128 env v1 v2 v3 v4 old = .ok X ∧
      vec128 X = concatV (k := 4) (a := 32) ![vec32 v1, vec32 v2, vec32 v3, vec32 v4] := by
  obtain ⟨X, h, hX⟩ := VectorcomV32to128_gen env v1 v2 v3 v4 old
  refine ⟨X, h, ?_⟩
  rw [vec_le (k := 4) (a := 32) env he ![v1, v2, v3, v4] (vec128 X) hX]
  congr 1
  funext b; fin_cases b <;> rfl

/-- C20: `affinecomM32to128` does both. -/
theorem C20_affinecomM32to128 (env : Env) (he : env.endian = .little) (f1 f2 f3 f4 : Aff32) (old : Aff128) :
    ∃ F, affinecomM32to128 env f1 f2 f3 f4 old = .ok F ∧
      mat128 F.Mat = blockDiag (k := 4) (a := 32) ![mat32 f1.Mat, mat32 f2.Mat, mat32 f3.Mat, mat32 f4.Mat] ∧
      vec128 F.Vec = concatV (k := 4) (a := 32) ![vec32 f1.Vec, vec32 f2.Vec, vec32 f3.Vec, vec32 f4.Vec] := by
  obtain ⟨M, h, hM⟩ := C20_MatrixcomM32to128 env he f1.Mat f2.Mat f3.Mat f4.Mat old.Mat
  obtain ⟨X, g, hX⟩ := C20_VectorcomV32to128 env he f1.Vec f2.Vec f3.Vec f4.Vec old.Vec
  refine ⟨⟨M, X⟩, ?_, hM, hX⟩
  unfold affinecomM32to128
  rw [h, C_pure_bind, g, C_pure_bind]
  rfl

example : VectorcomV32to128 exEnv 0x11 0x22 0x33 0x44 exX128 = .ok #v[0x1100000022, 0x3300000044] := by decide +kernel
example : ∃ M, MatrixcomM32to128 exEnv exA32 exB32 exA32 exB32 exB128 = .ok M ∧
    mat128 M = blockDiag (k := 4) (a := 32) ![mat32 exA32, mat32 exB32, mat32 exA32, mat32 exB32] :=
  C20_MatrixcomM32to128 exEnv rfl exA32 exB32 exA32 exB32 exB128

/-- C20: `MatrixcomM8to128` stores the block-diagonal matrix of its arguments. -/
theorem C20_MatrixcomM8to128 (env : Env) (he : env.endian = .little) (m1 m2 m3 m4 m5 m6 m7 m8 m9 m10 m11 m12 m13 m14 m15 m16 : M8) (old : M128) :
    ∃ M, MatrixcomM8to128 env m1 m2 m3 m4 m5 m6 m7 m8 m9 m10 m11 m12 m13 m14 m15 m16 old = .ok M ∧
      mat128 M = blockDiag (k := 16) (a := 8) ![mat8 m1, mat8 m2, mat8 m3, mat8 m4, mat8 m5, mat8 m6, mat8 m7, mat8 m8, mat8 m9, mat8 m10, mat8 m11, mat8 m12, mat8 m13, mat8 m14, mat8 m15, mat8 m16] := by
  obtain ⟨M, h, hM⟩ := MatrixcomM8to128_gen env m1 m2 m3 m4 m5 m6 m7 m8 m9 m10 m11 m12 m13 m14 m15 m16 old
  refine ⟨M, h, ?_⟩
  rw [blk_le (k := 16) (a := 8) env he ![m1, m2, m3, m4, m5, m6, m7, m8, m9, m10, m11, m12, m13, m14, m15, m16] (mat128 M) hM]
  congr 1
  funext b; fin_cases b <;> rfl

/-- C20: `VectorcomV8to128` stores the concatenation of its arguments. -/
theorem C20_VectorcomV8to128 (env : Env) (he : env.endian = .little) (v1 v2 v3 v4 v5 v6 v7 v8 v9 v10 v11 v12 v13 v14 v15 v16 : V8) (old : V128) :
    ∃ X, VectorcomV8to128 env v1 v2 v3 v4 v5 v6 v7 v8 v9 v10 v11 v12 v13 v14 v15 v16 old = .ok X ∧
      vec128 X = concatV (k := 16) (a := 8) ![vec8 v1, vec8 v2, vec8 v3, vec8 v4, vec8 v5, vec8 v6, vec8 v7, vec8 v8, vec8 v9, vec8 v10, vec8 v11, vec8 v12, vec8 v13, vec8 v14, vec8 v15, vec8 v16] := by
  obtain ⟨X, h, hX⟩ := VectorcomV8to128_gen env v1 v2 v3 v4 v5 v6 v7 v8 v9 v10 v11 v12 v13 v14 v15 v16 old
  refine ⟨X, h, ?_⟩
  rw [vec_le (k := 16) (a := 8) env he ![v1, v2, v3, v4, v5, v6, v7, v8, v9, v10, v11, v12, v13, v14, v15, v16] (vec128 X) hX]
  congr 1
  funext b; fin_cases b <;> rfl

/-- C20: `affinecomM8to128` does both. -/
theorem C20_affinecomM8to128 (env : Env) (he : env.endian = .little) (f1 f2 f3 f4 f5 f6 f7 f8 f9 f10 f11 f12 f13 f14 f15 f16 : Aff8) (old : Aff128) :
    ∃ F, affinecomM8to128 env f1 f2 f3 f4 f5 f6 f7 f8 f9 f10 f11 f12 f13 f14 f15 f16 old = .ok F ∧
      mat128 F.Mat = blockDiag (k := 16) (a := 8) ![mat8 f1.Mat, mat8 f2.Mat, mat8 f3.Mat, mat8 f4.Mat, mat8 f5.Mat, mat8 f6.Mat, mat8 f7.Mat, mat8 f8.Mat, mat8 f9.Mat, mat8 f10.Mat, mat8 f11.Mat, mat8 f12.Mat, mat8 f13.Mat, mat8 f14.Mat, mat8 f15.Mat, mat8 f16.Mat] ∧
      vec128 F.Vec = concatV (k := 16) (a := 8) ![vec8 f1.Vec, vec8 f2.Vec, vec8 f3.Vec, vec8 f4.Vec, vec8 f5.Vec, vec8 f6.Vec, vec8 f7.Vec, vec8 f8.Vec, vec8 f9.Vec, vec8 f10.Vec, vec8 f11.Vec, vec8 f12.Vec, vec8 f13.Vec, vec8 f14.Vec, vec8 f15.Vec, vec8 f16.Vec] := by
  obtain ⟨M, h, hM⟩ := C20_MatrixcomM8to128 env he f1.Mat f2.Mat f3.Mat f4.Mat f5.Mat f6.Mat f7.Mat f8.Mat f9.Mat f10.Mat f11.Mat f12.Mat f13.Mat f14.Mat f15.Mat f16.Mat old.Mat
  obtain ⟨X, g, hX⟩ := C20_VectorcomV8to128 env he f1.Vec f2.Vec f3.Vec f4.Vec f5.Vec f6.Vec f7.Vec f8.Vec f9.Vec f10.Vec f11.Vec f12.Vec f13.Vec f14.Vec f15.Vec f16.Vec old.Vec
  refine ⟨⟨M, X⟩, ?_, hM, hX⟩
  unfold affinecomM8to128
  rw [h, C_pure_bind, g, C_pure_bind]
  rfl

example : VectorcomV8to128 exEnv 0x11 0x22 0x33 0x44 0x55 0x66 0x77 0x88 0x99 0xaa 0xbb 0xcc 0xdd 0xee 0xff 0x110 exX128 = .ok #v[0x1122334455667788, 0x99aabbccddeeff10] := by decide +kernel
example : ∃ M, MatrixcomM8to128 exEnv exA8 exB8 exA8 exB8 exA8 exB8 exA8 exB8 exA8 exB8 exA8 exB8 exA8 exB8 exA8 exB8 exB128 = .ok M ∧
    mat128 M = blockDiag (k := 16) (a := 8) ![mat8 exA8, mat8 exB8, mat8 exA8, mat8 exB8, mat8 exA8, mat8 exB8, mat8 exA8, mat8 exB8, mat8 exA8, mat8 exB8, mat8 exA8, mat8 exB8, mat8 exA8, mat8 exB8, mat8 exA8, mat8 exB8] :=
  C20_MatrixcomM8to128 exEnv rfl exA8 exB8 exA8 exB8 exA8 exB8 exA8 exB8 exA8 exB8 exA8 exB8 exA8 exB8 exA8 exB8 exB128

/-- C20: `MatrixcomM16to128` stores the block-diagonal matrix of its arguments. -/
theorem C20_MatrixcomM16to128 (env : Env) (he : env.endian = .little) (m1 m2 m3 m4 m5 m6 m7 m8 : M16) (old : M128) :
    ∃ M, MatrixcomM16to128 env m1 m2 m3 m4 m5 m6 m7 m8 old = .ok M ∧
      mat128 M = blockDiag (k := 8) (a := 16) ![mat16 m1, mat16 m2, mat16 m3, mat16 m4, mat16 m5, mat16 m6, mat16 m7, mat16 m8] := by
  obtain ⟨M, h, hM⟩ := MatrixcomM16to128_gen env m1 m2 m3 m4 m5 m6 m7 m8 old
  refine ⟨M, h, ?_⟩
  rw [blk_le (k := 8) (a := 16) env he ![m1, m2, m3, m4, m5, m6, m7, m8] (mat128 M) hM]
  congr 1
  funext b; fin_cases b <;> rfl

/-- C20: `VectorcomV16to128` stores the concatenation of its arguments. -/
theorem C20_VectorcomV16to128 (env : Env) (he : env.endian = .little) (v1 v2 v3 v4 v5 v6 v7 v8 : V16) (old : V128) :
    ∃ X, VectorcomV16to128 env v1 v2 v3 v4 v5 v6 v7 v8 old = .ok X ∧
      vec128 X = concatV (k := 8) (a := 16) ![vec16 v1, vec16 v2, vec16 v3, vec16 v4, vec16 v5, vec16 v6, vec16 v7, vec16 v8] := by
  obtain ⟨X, h, hX⟩ := VectorcomV16to128_gen env v1 v2 v3 v4 v5 v6 v7 v8 old
  refine ⟨X, h, ?_⟩
  rw [vec_le (k := 8) (a := 16) env he ![v1, v2, v3, v4, v5, v6, v7, v8] (vec128 X) hX]
  congr 1
  funext b; fin_cases b <;> rfl

/-- C20: `affinecomM16to128` does both. -/
theorem C20_affinecomM16to128 (env : Env) (he : env.endian = .little) (f1 f2 f3 f4 f5 f6 f7 f8 : Aff16) (old : Aff128) :
    ∃ F, affinecomM16to128 env f1 f2 f3 f4 f5 f6 f7 f8 old = .ok F ∧
      mat128 F.Mat = blockDiag (k := 8) (a := 16) ![mat16 f1.Mat, mat16 f2.Mat, mat16 f3.Mat, mat16 f4.Mat, mat16 f5.Mat, mat16 f6.Mat, mat16 f7.Mat, mat16 f8.Mat] ∧
      vec128 F.Vec = concatV (k := 8) (a := 16) ![vec16 f1.Vec, vec16 f2.Vec, vec16 f3.Vec, vec16 f4.Vec, vec16 f5.Vec, vec16 f6.Vec, vec16 f7.Vec, vec16 f8.Vec] := by
  obtain ⟨M, h, hM⟩ := C20_MatrixcomM16to128 env he f1.Mat f2.Mat f3.Mat f4.Mat f5.Mat f6.Mat f7.Mat f8.Mat old.Mat
  obtain ⟨X, g, hX⟩ := C20_VectorcomV16to128 env he f1.Vec f2.Vec f3.Vec f4.Vec f5.Vec f6.Vec f7.Vec f8.Vec old.Vec
  refine ⟨⟨M, X⟩, ?_, hM, hX⟩
  unfold affinecomM16to128
  rw [h, C_pure_bind, g, C_pure_bind]
  rfl

example : VectorcomV16to128 exEnv 0x11 0x22 0x33 0x44 0x55 0x66 0x77 0x88 exX128 = .ok #v[0x11002200330044, 0x55006600770088] := by decide +kernel
example : ∃ M, MatrixcomM16to128 exEnv exA16 exB16 exA16 exB16 exA16 exB16 exA16 exB16 exB128 = .ok M ∧
    mat128 M = blockDiag (k := 8) (a := 16) ![mat16 exA16, mat16 exB16, mat16 exA16, mat16 exB16, mat16 exA16, mat16 exB16, mat16 exA16, mat16 exB16] :=
  C20_MatrixcomM16to128 exEnv rfl exA16 exB16 exA16 exB16 exA16 exB16 exA16 exB16 exB128

end WB
