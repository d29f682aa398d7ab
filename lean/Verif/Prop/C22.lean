import Verif.Proof.Com
import Verif.Prop.Examples

/-!
# C22 — concatenation depends on the byte order
-/
namespace WB
open Matrix

/-- C22: on a big-endian machine `VectorcomV8to32` stores the arguments in reversed order
. -/
theorem C22_VectorcomV8to32 (env : Env) (he : env.endian = .big) (v1 v2 v3 v4 : V8) (old : V32) :
    ∃ X, VectorcomV8to32 env v1 v2 v3 v4 old = .ok X ∧
      vec32 X = concatV (k := 4) (a := 8) ![vec8 v4, vec8 v3, vec8 v2, vec8 v1] ∧
      (vec32 X = concatV (k := 4) (a := 8) ![vec8 v1, vec8 v2, vec8 v3, vec8 v4] ↔
        v1 = v4 ∧ v2 = v3) := by
  obtain ⟨X, h, hX⟩ := VectorcomV8to32_gen env v1 v2 v3 v4 old
  have e : vec32 X = concatV (k := 4) (a := 8) ![vec8 v4, vec8 v3, vec8 v2, vec8 v1] := by
    rw [vec_general (k := 4) (a := 8) env ![v1, v2, v3, v4] (vec32 X) ![3, 2, 1, 0]
      (fun b => by simp only [Env.pos, he]; fin_cases b <;> rfl) hX]
    congr 1
    funext b; fin_cases b <;> rfl
  refine ⟨X, h, e, ?_⟩
  constructor
  · intro h'
    have h2 := concatV_inj (e.symm.trans h')
    exact ⟨(vec8_inj (congrFun h2 0)).symm, (vec8_inj (congrFun h2 1)).symm⟩
  · rintro ⟨rfl, rfl⟩
    exact e

/-- C22: on a big-endian machine `MatrixcomM8to32` puts block row `b` into block column
`![3, 2, 1, 0] b`; the result is the documented block-diagonal matrix only when all blocks are zero. -/
theorem C22_MatrixcomM8to32 (env : Env) (he : env.endian = .big) (m1 m2 m3 m4 : M8) (old : M32) :
    ∃ M, MatrixcomM8to32 env m1 m2 m3 m4 old = .ok M ∧
      (∀ r c : Fin (4 * 8), mat32 M r c =
        if c.divNat = (![3, 2, 1, 0] : Fin 4 → Fin 4) r.divNat then
          (![mat8 m1, mat8 m2, mat8 m3, mat8 m4] : Fin 4 → Matrix (Fin 8) (Fin 8) (ZMod 2)) r.divNat r.modNat c.modNat else 0) ∧
      (mat32 M = blockDiag (k := 4) (a := 8) ![mat8 m1, mat8 m2, mat8 m3, mat8 m4] ↔
        ∀ b : Fin 4, (![mat8 m1, mat8 m2, mat8 m3, mat8 m4] : Fin 4 → Matrix (Fin 8) (Fin 8) (ZMod 2)) b = 0) := by
  obtain ⟨M, h, hM⟩ := MatrixcomM8to32_gen env m1 m2 m3 m4 old
  have hml : (fun b => matOf 8 (bitS 8) ((![m1, m2, m3, m4] : Fin 4 → M8) b)) = ![mat8 m1, mat8 m2, mat8 m3, mat8 m4] := by
    funext b; fin_cases b <;> rfl
  have e := blk_general (k := 4) (a := 8) env ![m1, m2, m3, m4] (mat32 M) ![3, 2, 1, 0]
      (fun b => by simp only [Env.pos, he]; fin_cases b <;> rfl) hM
  have e2 : mat32 M = fun r c : Fin (4 * 8) => if c.divNat = (![3, 2, 1, 0] : Fin 4 → Fin 4) r.divNat then
      (![mat8 m1, mat8 m2, mat8 m3, mat8 m4] : Fin 4 → Matrix (Fin 8) (Fin 8) (ZMod 2)) r.divNat r.modNat c.modNat else 0 := by
    rw [← hml]; exact e
  refine ⟨M, h, fun r c => by rw [e2], ?_⟩
  rw [e2]
  exact blk_zero_iff (k := 4) (a := 8) _ _ (by decide)

example : VectorcomV8to32 exEnvBE 0x11 0x22 0x33 0x44 exX32 = .ok 0x44332211 := by decide +kernel
example : ∃ M, MatrixcomM8to32 exEnvBE exA8 exB8 exA8 exB8 exB32 = .ok M ∧
    mat32 M ≠ blockDiag (k := 4) (a := 8) ![mat8 exA8, mat8 exB8, mat8 exA8, mat8 exB8] := by
  obtain ⟨M, h, -, hM⟩ := C22_MatrixcomM8to32 exEnvBE rfl exA8 exB8 exA8 exB8 exB32
  refine ⟨M, h, fun e => ?_⟩
  have h0 : mat8 exA8 = 0 := hM.1 e 0
  exact absurd (congrFun (congrFun h0 0) 0) (by decide +kernel)

/-- C22: on a big-endian machine `VectorcomV16to64` stores the arguments in reversed order
. -/
theorem C22_VectorcomV16to64 (env : Env) (he : env.endian = .big) (v1 v2 v3 v4 : V16) (old : V64) :
    ∃ X, VectorcomV16to64 env v1 v2 v3 v4 old = .ok X ∧
      vec64 X = concatV (k := 4) (a := 16) ![vec16 v4, vec16 v3, vec16 v2, vec16 v1] ∧
      (vec64 X = concatV (k := 4) (a := 16) ![vec16 v1, vec16 v2, vec16 v3, vec16 v4] ↔
        v1 = v4 ∧ v2 = v3) := by
  obtain ⟨X, h, hX⟩ := VectorcomV16to64_gen env v1 v2 v3 v4 old
  have e : vec64 X = concatV (k := 4) (a := 16) ![vec16 v4, vec16 v3, vec16 v2, vec16 v1] := by
    rw [vec_general (k := 4) (a := 16) env ![v1, v2, v3, v4] (vec64 X) ![3, 2, 1, 0]
      (fun b => by simp only [Env.pos, he]; fin_cases b <;> rfl) hX]
    congr 1
    funext b; fin_cases b <;> rfl
  refine ⟨X, h, e, ?_⟩
  constructor
  · intro h'
    have h2 := concatV_inj (e.symm.trans h')
    exact ⟨(vec16_inj (congrFun h2 0)).symm, (vec16_inj (congrFun h2 1)).symm⟩
  · rintro ⟨rfl, rfl⟩
    exact e

/-- C22: on a big-endian machine `MatrixcomM16to64` puts block row `b` into block column
`![3, 2, 1, 0] b`; the result is the documented block-diagonal matrix only when all blocks are zero. -/
theorem C22_MatrixcomM16to64 (env : Env) (he : env.endian = .big) (m1 m2 m3 m4 : M16) (old : M64) :
    ∃ M, MatrixcomM16to64 env m1 m2 m3 m4 old = .ok M ∧
      (∀ r c : Fin (4 * 16), mat64 M r c =
        if c.divNat = (![3, 2, 1, 0] : Fin 4 → Fin 4) r.divNat then
          (![mat16 m1, mat16 m2, mat16 m3, mat16 m4] : Fin 4 → Matrix (Fin 16) (Fin 16) (ZMod 2)) r.divNat r.modNat c.modNat else 0) ∧
      (mat64 M = blockDiag (k := 4) (a := 16) ![mat16 m1, mat16 m2, mat16 m3, mat16 m4] ↔
        ∀ b : Fin 4, (![mat16 m1, mat16 m2, mat16 m3, mat16 m4] : Fin 4 → Matrix (Fin 16) (Fin 16) (ZMod 2)) b = 0) := by
  obtain ⟨M, h, hM⟩ := MatrixcomM16to64_gen env m1 m2 m3 m4 old
  have hml : (fun b => matOf 16 (bitS 16) ((![m1, m2, m3, m4] : Fin 4 → M16) b)) = ![mat16 m1, mat16 m2, mat16 m3, mat16 m4] := by
    funext b; fin_cases b <;> rfl
  have e := blk_general (k := 4) (a := 16) env ![m1, m2, m3, m4] (mat64 M) ![3, 2, 1, 0]
      (fun b => by simp only [Env.pos, he]; fin_cases b <;> rfl) hM
  have e2 : mat64 M = fun r c : Fin (4 * 16) => if c.divNat = (![3, 2, 1, 0] : Fin 4 → Fin 4) r.divNat then
      (![mat16 m1, mat16 m2, mat16 m3, mat16 m4] : Fin 4 → Matrix (Fin 16) (Fin 16) (ZMod 2)) r.divNat r.modNat c.modNat else 0 := by
    rw [← hml]; exact e
  refine ⟨M, h, fun r c => by rw [e2], ?_⟩
  rw [e2]
  exact blk_zero_iff (k := 4) (a := 16) _ _ (by decide)

example : VectorcomV16to64 exEnvBE 0x11 0x22 0x33 0x44 exX64 = .ok 0x44003300220011 := by decide +kernel
example : ∃ M, MatrixcomM16to64 exEnvBE exA16 exB16 exA16 exB16 exB64 = .ok M ∧
    mat64 M ≠ blockDiag (k := 4) (a := 16) ![mat16 exA16, mat16 exB16, mat16 exA16, mat16 exB16] := by
  obtain ⟨M, h, -, hM⟩ := C22_MatrixcomM16to64 exEnvBE rfl exA16 exB16 exA16 exB16 exB64
  refine ⟨M, h, fun e => ?_⟩
  have h0 : mat16 exA16 = 0 := hM.1 e 0
  exact absurd (congrFun (congrFun h0 0) 0) (by decide +kernel)

/-- C22: on a big-endian machine `VectorcomV8to64` stores the arguments in reversed order
. -/
theorem C22_VectorcomV8to64 (env : Env) (he : env.endian = .big) (v1 v2 v3 v4 v5 v6 v7 v8 : V8) (old : V64) :
    ∃ X, VectorcomV8to64 env v1 v2 v3 v4 v5 v6 v7 v8 old = .ok X ∧
      vec64 X = concatV (k := 8) (a := 8) ![vec8 v8, vec8 v7, vec8 v6, vec8 v5, vec8 v4, vec8 v3, vec8 v2, vec8 v1] ∧
      (vec64 X = concatV (k := 8) (a := 8) ![vec8 v1, vec8 v2, vec8 v3, vec8 v4, vec8 v5, vec8 v6, vec8 v7, vec8 v8] ↔
        v1 = v8 ∧ v2 = v7 ∧ v3 = v6 ∧ v4 = v5) := by
  obtain ⟨X, h, hX⟩ := VectorcomV8to64_gen env v1 v2 v3 v4 v5 v6 v7 v8 old
  have e : vec64 X = concatV (k := 8) (a := 8) ![vec8 v8, vec8 v7, vec8 v6, vec8 v5, vec8 v4, vec8 v3, vec8 v2, vec8 v1] := by
    rw [vec_general (k := 8) (a := 8) env ![v1, v2, v3, v4, v5, v6, v7, v8] (vec64 X) ![7, 6, 5, 4, 3, 2, 1, 0]
      (fun b => by simp only [Env.pos, he]; fin_cases b <;> rfl) hX]
    congr 1
    funext b; fin_cases b <;> rfl
  refine ⟨X, h, e, ?_⟩
  constructor
  · intro h'
    have h2 := concatV_inj (e.symm.trans h')
    exact ⟨(vec8_inj (congrFun h2 0)).symm, (vec8_inj (congrFun h2 1)).symm, (vec8_inj (congrFun h2 2)).symm, (vec8_inj (congrFun h2 3)).symm⟩
  · rintro ⟨rfl, rfl, rfl, rfl⟩
    exact e

/-- C22: on a big-endian machine `MatrixcomM8to64` puts block row `b` into block column
`![7, 6, 5, 4, 3, 2, 1, 0] b`; the result is the documented block-diagonal matrix only when all blocks are zero. -/
theorem C22_MatrixcomM8to64 (env : Env) (he : env.endian = .big) (m1 m2 m3 m4 m5 m6 m7 m8 : M8) (old : M64) :
    ∃ M, MatrixcomM8to64 env m1 m2 m3 m4 m5 m6 m7 m8 old = .ok M ∧
      (∀ r c : Fin (8 * 8), mat64 M r c =
        if c.divNat = (![7, 6, 5, 4, 3, 2, 1, 0] : Fin 8 → Fin 8) r.divNat then
          (![mat8 m1, mat8 m2, mat8 m3, mat8 m4, mat8 m5, mat8 m6, mat8 m7, mat8 m8] : Fin 8 → Matrix (Fin 8) (Fin 8) (ZMod 2)) r.divNat r.modNat c.modNat else 0) ∧
      (mat64 M = blockDiag (k := 8) (a := 8) ![mat8 m1, mat8 m2, mat8 m3, mat8 m4, mat8 m5, mat8 m6, mat8 m7, mat8 m8] ↔
        ∀ b : Fin 8, (![mat8 m1, mat8 m2, mat8 m3, mat8 m4, mat8 m5, mat8 m6, mat8 m7, mat8 m8] : Fin 8 → Matrix (Fin 8) (Fin 8) (ZMod 2)) b = 0) := by
  obtain ⟨M, h, hM⟩ := MatrixcomM8to64_gen env m1 m2 m3 m4 m5 m6 m7 m8 old
  have hml : (fun b => matOf 8 (bitS 8) ((![m1, m2, m3, m4, m5, m6, m7, m8] : Fin 8 → M8) b)) = ![mat8 m1, mat8 m2, mat8 m3, mat8 m4, mat8 m5, mat8 m6, mat8 m7, mat8 m8] := by
    funext b; fin_cases b <;> rfl
  have e := blk_general (k := 8) (a := 8) env ![m1, m2, m3, m4, m5, m6, m7, m8] (mat64 M) ![7, 6, 5, 4, 3, 2, 1, 0]
      (fun b => by simp only [Env.pos, he]; fin_cases b <;> rfl) hM
  have e2 : mat64 M = fun r c : Fin (8 * 8) => if c.divNat = (![7, 6, 5, 4, 3, 2, 1, 0] : Fin 8 → Fin 8) r.divNat then
      (![mat8 m1, mat8 m2, mat8 m3, mat8 m4, mat8 m5, mat8 m6, mat8 m7, mat8 m8] : Fin 8 → Matrix (Fin 8) (Fin 8) (ZMod 2)) r.divNat r.modNat c.modNat else 0 := by
    rw [← hml]; exact e
  refine ⟨M, h, fun r c => by rw [e2], ?_⟩
  rw [e2]
  exact blk_zero_iff (k := 8) (a := 8) _ _ (by decide)

example : VectorcomV8to64 exEnvBE 0x11 0x22 0x33 0x44 0x55 0x66 0x77 0x88 exX64 = .ok 0x8877665544332211 := by decide +kernel
example : ∃ M, MatrixcomM8to64 exEnvBE exA8 exB8 exA8 exB8 exA8 exB8 exA8 exB8 exB64 = .ok M ∧
    mat64 M ≠ blockDiag (k := 8) (a := 8) ![mat8 exA8, mat8 exB8, mat8 exA8, mat8 exB8, mat8 exA8, mat8 exB8, mat8 exA8, mat8 exB8] := by
  obtain ⟨M, h, -, hM⟩ := C22_MatrixcomM8to64 exEnvBE rfl exA8 exB8 exA8 exB8 exA8 exB8 exA8 exB8 exB64
  refine ⟨M, h, fun e => ?_⟩
  have h0 : mat8 exA8 = 0 := hM.1 e 0
  exact absurd (congrFun (congrFun h0 0) 0) (by decide +kernel)

/-- C22: on a big-endian machine `VectorcomV32to128` stores the arguments in reversed order
inside each 64-bit word. -/
theorem C22_VectorcomV32to128 (env : Env) (he : env.endian = .big) (v1 v2 v3 v4 : V32) (old : V128) :
    ∃ X, VectorcomV32to128 env v1 v2 v3 v4 old = .ok X ∧
      vec128 X = concatV (k := 4) (a := 32) ![vec32 v2, vec32 v1, vec32 v4, vec32 v3] ∧
      (vec128 X = concatV (k := 4) (a := 32) ![vec32 v1, vec32 v2, vec32 v3, vec32 v4] ↔
        v1 = v2 ∧ v3 = v4) := by
  obtain ⟨X, h, hX⟩ := VectorcomV32to128_gen env v1 v2 v3 v4 old
  have e : vec128 X = concatV (k := 4) (a := 32) ![vec32 v2, vec32 v1, vec32 v4, vec32 v3] := by
    rw [vec_general (k := 4) (a := 32) env ![v1, v2, v3, v4] (vec128 X) ![1, 0, 3, 2]
      (fun b => by simp only [Env.pos, he]; fin_cases b <;> rfl) hX]
    congr 1
    funext b; fin_cases b <;> rfl
  refine ⟨X, h, e, ?_⟩
  constructor
  · intro h'
    have h2 := concatV_inj (e.symm.trans h')
    exact ⟨(vec32_inj (congrFun h2 0)).symm, (vec32_inj (congrFun h2 2)).symm⟩
  · rintro ⟨rfl, rfl⟩
    exact e

/-- C22: on a big-endian machine `MatrixcomM32to128` puts block row `b` into block column
`![1, 0, 3, 2] b`; the result is the documented block-diagonal matrix only when all blocks are zero. -/
theorem C22_MatrixcomM32to128 (env : Env) (he : env.endian = .big) (m1 m2 m3 m4 : M32) (old : M128) :
    ∃ M, MatrixcomM32to128 env m1 m2 m3 m4 old = .ok M ∧
      (∀ r c : Fin (4 * 32), mat128 M r c =
        if c.divNat = (![1, 0, 3, 2] : Fin 4 → Fin 4) r.divNat then
          (![mat32 m1, mat32 m2, mat32 m3, mat32 m4] : Fin 4 → Matrix (Fin 32) (Fin 32) (ZMod 2)) r.divNat r.modNat c.modNat else 0) ∧
      (mat128 M = blockDiag (k := 4) (a := 32) ![mat32 m1, mat32 m2, mat32 m3, mat32 m4] ↔
        ∀ b : Fin 4, (![mat32 m1, mat32 m2, mat32 m3, mat32 m4] : Fin 4 → Matrix (Fin 32) (Fin 32) (ZMod 2)) b = 0) := by
  obtain ⟨M, h, hM⟩ := MatrixcomM32to128_gen env m1 m2 m3 m4 old
  have hml : (fun b => matOf 32 (bitS 32) ((![m1, m2, m3, m4] : Fin 4 → M32) b)) = ![mat32 m1, mat32 m2, mat32 m3, mat32 m4] := by
    funext b; fin_cases b <;> rfl
  have e := blk_general (k := 4) (a := 32) env ![m1, m2, m3, m4] (mat128 M) ![1, 0, 3, 2]
      (fun b => by simp only [Env.pos, he]; fin_cases b <;> rfl) hM
  have e2 : mat128 M = fun r c : Fin (4 * 32) => if c.divNat = (![1, 0, 3, 2] : Fin 4 → Fin 4) r.divNat then
      (![mat32 m1, mat32 m2, mat32 m3, mat32 m4] : Fin 4 → Matrix (Fin 32) (Fin 32) (ZMod 2)) r.divNat r.modNat c.modNat else 0 := by
    rw [← hml]; exact e
  refine ⟨M, h, fun r c => by rw [e2], ?_⟩
  rw [e2]
  exact blk_zero_iff (k := 4) (a := 32) _ _ (by decide)

example : VectorcomV32to128 exEnvBE 0x11 0x22 0x33 0x44 exX128 = .ok #v[0x2200000011, 0x4400000033] := by decide +kernel
example : ∃ M, MatrixcomM32to128 exEnvBE exA32 exB32 exA32 exB32 exB128 = .ok M ∧
    mat128 M ≠ blockDiag (k := 4) (a := 32) ![mat32 exA32, mat32 exB32, mat32 exA32, mat32 exB32] := by
  obtain ⟨M, h, -, hM⟩ := C22_MatrixcomM32to128 exEnvBE rfl exA32 exB32 exA32 exB32 exB128
  refine ⟨M, h, fun e => ?_⟩
  have h0 : mat32 exA32 = 0 := hM.1 e 0
  exact absurd (congrFun (congrFun h0 0) 0) (by decide +kernel)

/-- C22: on a big-endian machine `VectorcomV8to128` stores the arguments in reversed order
inside each 64-bit word. -/
theorem C22_VectorcomV8to128 (env : Env) (he : env.endian = .big) (v1 v2 v3 v4 v5 v6 v7 v8 v9 v10 v11 v12 v13 v14 v15 v16 : V8) (old : V128) :
    ∃ X, VectorcomV8to128 env v1 v2 v3 v4 v5 v6 v7 v8 v9 v10 v11 v12 v13 v14 v15 v16 old = .ok X ∧
      vec128 X = concatV (k := 16) (a := 8) ![vec8 v8, vec8 v7, vec8 v6, vec8 v5, vec8 v4, vec8 v3, vec8 v2, vec8 v1, vec8 v16, vec8 v15, vec8 v14, vec8 v13, vec8 v12, vec8 v11, vec8 v10, vec8 v9] ∧
      (vec128 X = concatV (k := 16) (a := 8) ![vec8 v1, vec8 v2, vec8 v3, vec8 v4, vec8 v5, vec8 v6, vec8 v7, vec8 v8, vec8 v9, vec8 v10, vec8 v11, vec8 v12, vec8 v13, vec8 v14, vec8 v15, vec8 v16] ↔
        v1 = v8 ∧ v2 = v7 ∧ v3 = v6 ∧ v4 = v5 ∧ v9 = v16 ∧ v10 = v15 ∧ v11 = v14 ∧ v12 = v13) := by
  obtain ⟨X, h, hX⟩ := VectorcomV8to128_gen env v1 v2 v3 v4 v5 v6 v7 v8 v9 v10 v11 v12 v13 v14 v15 v16 old
  have e : vec128 X = concatV (k := 16) (a := 8) ![vec8 v8, vec8 v7, vec8 v6, vec8 v5, vec8 v4, vec8 v3, vec8 v2, vec8 v1, vec8 v16, vec8 v15, vec8 v14, vec8 v13, vec8 v12, vec8 v11, vec8 v10, vec8 v9] := by
    rw [vec_general (k := 16) (a := 8) env ![v1, v2, v3, v4, v5, v6, v7, v8, v9, v10, v11, v12, v13, v14, v15, v16] (vec128 X) ![7, 6, 5, 4, 3, 2, 1, 0, 15, 14, 13, 12, 11, 10, 9, 8]
      (fun b => by simp only [Env.pos, he]; fin_cases b <;> rfl) hX]
    congr 1
    funext b; fin_cases b <;> rfl
  refine ⟨X, h, e, ?_⟩
  constructor
  · intro h'
    have h2 := concatV_inj (e.symm.trans h')
    exact ⟨(vec8_inj (congrFun h2 0)).symm, (vec8_inj (congrFun h2 1)).symm, (vec8_inj (congrFun h2 2)).symm, (vec8_inj (congrFun h2 3)).symm, (vec8_inj (congrFun h2 8)).symm, (vec8_inj (congrFun h2 9)).symm, (vec8_inj (congrFun h2 10)).symm, (vec8_inj (congrFun h2 11)).symm⟩
  · rintro ⟨rfl, rfl, rfl, rfl, rfl, rfl, rfl, rfl⟩
    exact e

/-- C22: on a big-endian machine `MatrixcomM8to128` puts block row `b` into block column
`![7, 6, 5, 4, 3, 2, 1, 0, 15, 14, 13, 12, 11, 10, 9, 8] b`; the result is the documented block-diagonal matrix only when all blocks are zero. -/
theorem C22_MatrixcomM8to128 (env : Env) (he : env.endian = .big) (m1 m2 m3 m4 m5 m6 m7 m8 m9 m10 m11 m12 m13 m14 m15 m16 : M8) (old : M128) :
    ∃ M, MatrixcomM8to128 env m1 m2 m3 m4 m5 m6 m7 m8 m9 m10 m11 m12 m13 m14 m15 m16 old = .ok M ∧
      (∀ r c : Fin (16 * 8), mat128 M r c =
        if c.divNat = (![7, 6, 5, 4, 3, 2, 1, 0, 15, 14, 13, 12, 11, 10, 9, 8] : Fin 16 → Fin 16) r.divNat then
          (![mat8 m1, mat8 m2, mat8 m3, mat8 m4, mat8 m5, mat8 m6, mat8 m7, mat8 m8, mat8 m9, mat8 m10, mat8 m11, mat8 m12, mat8 m13, mat8 m14, mat8 m15, mat8 m16] : Fin 16 → Matrix (Fin 8) (Fin 8) (ZMod 2)) r.divNat r.modNat c.modNat else 0) ∧
      (mat128 M = blockDiag (k := 16) (a := 8) ![mat8 m1, mat8 m2, mat8 m3, mat8 m4, mat8 m5, mat8 m6, mat8 m7, mat8 m8, mat8 m9, mat8 m10, mat8 m11, mat8 m12, mat8 m13, mat8 m14, mat8 m15, mat8 m16] ↔
        ∀ b : Fin 16, (![mat8 m1, mat8 m2, mat8 m3, mat8 m4, mat8 m5, mat8 m6, mat8 m7, mat8 m8, mat8 m9, mat8 m10, mat8 m11, mat8 m12, mat8 m13, mat8 m14, mat8 m15, mat8 m16] : Fin 16 → Matrix (Fin 8) (Fin 8) (ZMod 2)) b = 0) := by
  obtain ⟨M, h, hM⟩ := MatrixcomM8to128_gen env m1 m2 m3 m4 m5 m6 m7 m8 m9 m10 m11 m12 m13 m14 m15 m16 old
  have hml : (fun b => matOf 8 (bitS 8) ((![m1, m2, m3, m4, m5, m6, m7, m8, m9, m10, m11, m12, m13, m14, m15, m16] : Fin 16 → M8) b)) = ![mat8 m1, mat8 m2, mat8 m3, mat8 m4, mat8 m5, mat8 m6, mat8 m7, mat8 m8, mat8 m9, mat8 m10, mat8 m11, mat8 m12, mat8 m13, mat8 m14, mat8 m15, mat8 m16] := by
    funext b; fin_cases b <;> rfl
  have e := blk_general (k := 16) (a := 8) env ![m1, m2, m3, m4, m5, m6, m7, m8, m9, m10, m11, m12, m13, m14, m15, m16] (mat128 M) ![7, 6, 5, 4, 3, 2, 1, 0, 15, 14, 13, 12, 11, 10, 9, 8]
      (fun b => by simp only [Env.pos, he]; fin_cases b <;> rfl) hM
  have e2 : mat128 M = fun r c : Fin (16 * 8) => if c.divNat = (![7, 6, 5, 4, 3, 2, 1, 0, 15, 14, 13, 12, 11, 10, 9, 8] : Fin 16 → Fin 16) r.divNat then
      (![mat8 m1, mat8 m2, mat8 m3, mat8 m4, mat8 m5, mat8 m6, mat8 m7, mat8 m8, mat8 m9, mat8 m10, mat8 m11, mat8 m12, mat8 m13, mat8 m14, mat8 m15, mat8 m16] : Fin 16 → Matrix (Fin 8) (Fin 8) (ZMod 2)) r.divNat r.modNat c.modNat else 0 := by
    rw [← hml]; exact e
  refine ⟨M, h, fun r c => by rw [e2], ?_⟩
  rw [e2]
  exact blk_zero_iff (k := 16) (a := 8) _ _ (by decide)

example : VectorcomV8to128 exEnvBE 0x11 0x22 0x33 0x44 0x55 0x66 0x77 0x88 0x99 0xaa 0xbb 0xcc 0xdd 0xee 0xff 0x110 exX128 = .ok #v[0x8877665544332211, 0x10ffeeddccbbaa99] := by decide +kernel
example : ∃ M, MatrixcomM8to128 exEnvBE exA8 exB8 exA8 exB8 exA8 exB8 exA8 exB8 exA8 exB8 exA8 exB8 exA8 exB8 exA8 exB8 exB128 = .ok M ∧
    mat128 M ≠ blockDiag (k := 16) (a := 8) ![mat8 exA8, mat8 exB8, mat8 exA8, mat8 exB8, mat8 exA8, mat8 exB8, mat8 exA8, mat8 exB8, mat8 exA8, mat8 exB8, mat8 exA8, mat8 exB8, mat8 exA8, mat8 exB8, mat8 exA8, mat8 exB8] := by
  obtain ⟨M, h, -, hM⟩ := C22_MatrixcomM8to128 exEnvBE rfl exA8 exB8 exA8 exB8 exA8 exB8 exA8 exB8 exA8 exB8 exA8 exB8 exA8 exB8 exA8 exB8 exB128
  refine ⟨M, h, fun e => ?_⟩
  have h0 : mat8 exA8 = 0 := hM.1 e 0
  exact absurd (congrFun (congrFun h0 0) 0) (by decide +kernel)

/-- C22: on a big-endian machine `VectorcomV16to128` stores the arguments in reversed order
inside each 64-bit word. -/
theorem C22_VectorcomV16to128 (env : Env) (he : env.endian = .big) (v1 v2 v3 v4 v5 v6 v7 v8 : V16) (old : V128) :
    ∃ X, VectorcomV16to128 env v1 v2 v3 v4 v5 v6 v7 v8 old = .ok X ∧
      vec128 X = concatV (k := 8) (a := 16) ![vec16 v4, vec16 v3, vec16 v2, vec16 v1, vec16 v8, vec16 v7, vec16 v6, vec16 v5] ∧
      (vec128 X = concatV (k := 8) (a := 16) ![vec16 v1, vec16 v2, vec16 v3, vec16 v4, vec16 v5, vec16 v6, vec16 v7, vec16 v8] ↔
        v1 = v4 ∧ v2 = v3 ∧ v5 = v8 ∧ v6 = v7) := by
  obtain ⟨X, h, hX⟩ := VectorcomV16to128_gen env v1 v2 v3 v4 v5 v6 v7 v8 old
  have e : vec128 X = concatV (k := 8) (a := 16) ![vec16 v4, vec16 v3, vec16 v2, vec16 v1, vec16 v8, vec16 v7, vec16 v6, vec16 v5] := by
    rw [vec_general (k := 8) (a := 16) env ![v1, v2, v3, v4, v5, v6, v7, v8] (vec128 X) ![3, 2, 1, 0, 7, 6, 5, 4]
      (fun b => by simp only [Env.pos, he]; fin_cases b <;> rfl) hX]
    congr 1
    funext b; fin_cases b <;> rfl
  refine ⟨X, h, e, ?_⟩
  constructor
  · intro h'
    have h2 := concatV_inj (e.symm.trans h')
    exact ⟨(vec16_inj (congrFun h2 0)).symm, (vec16_inj (congrFun h2 1)).symm, (vec16_inj (congrFun h2 4)).symm, (vec16_inj (congrFun h2 5)).symm⟩
  · rintro ⟨rfl, rfl, rfl, rfl⟩
    exact e

/-- C22: on a big-endian machine `MatrixcomM16to128` puts block row `b` into block column
`![3, 2, 1, 0, 7, 6, 5, 4] b`; the result is the documented block-diagonal matrix only when all blocks are zero. -/
theorem C22_MatrixcomM16to128 (env : Env) (he : env.endian = .big) (m1 m2 m3 m4 m5 m6 m7 m8 : M16) (old : M128) :
    ∃ M, MatrixcomM16to128 env m1 m2 m3 m4 m5 m6 m7 m8 old = .ok M ∧
      (∀ r c : Fin (8 * 16), mat128 M r c =
        if c.divNat = (![3, 2, 1, 0, 7, 6, 5, 4] : Fin 8 → Fin 8) r.divNat then
          (![mat16 m1, mat16 m2, mat16 m3, mat16 m4, mat16 m5, mat16 m6, mat16 m7, mat16 m8] : Fin 8 → Matrix (Fin 16) (Fin 16) (ZMod 2)) r.divNat r.modNat c.modNat else 0) ∧
      (mat128 M = blockDiag (k := 8) (a := 16) ![mat16 m1, mat16 m2, mat16 m3, mat16 m4, mat16 m5, mat16 m6, mat16 m7, mat16 m8] ↔
        ∀ b : Fin 8, (![mat16 m1, mat16 m2, mat16 m3, mat16 m4, mat16 m5, mat16 m6, mat16 m7, mat16 m8] : Fin 8 → Matrix (Fin 16) (Fin 16) (ZMod 2)) b = 0) := by
  obtain ⟨M, h, hM⟩ := MatrixcomM16to128_gen env m1 m2 m3 m4 m5 m6 m7 m8 old
  have hml : (fun b => matOf 16 (bitS 16) ((![m1, m2, m3, m4, m5, m6, m7, m8] : Fin 8 → M16) b)) = ![mat16 m1, mat16 m2, mat16 m3, mat16 m4, mat16 m5, mat16 m6, mat16 m7, mat16 m8] := by
    funext b; fin_cases b <;> rfl
  have e := blk_general (k := 8) (a := 16) env ![m1, m2, m3, m4, m5, m6, m7, m8] (mat128 M) ![3, 2, 1, 0, 7, 6, 5, 4]
      (fun b => by simp only [Env.pos, he]; fin_cases b <;> rfl) hM
  have e2 : mat128 M = fun r c : Fin (8 * 16) => if c.divNat = (![3, 2, 1, 0, 7, 6, 5, 4] : Fin 8 → Fin 8) r.divNat then
      (![mat16 m1, mat16 m2, mat16 m3, mat16 m4, mat16 m5, mat16 m6, mat16 m7, mat16 m8] : Fin 8 → Matrix (Fin 16) (Fin 16) (ZMod 2)) r.divNat r.modNat c.modNat else 0 := by
    rw [← hml]; exact e
  refine ⟨M, h, fun r c => by rw [e2], ?_⟩
  rw [e2]
  exact blk_zero_iff (k := 8) (a := 16) _ _ (by decide)

example : VectorcomV16to128 exEnvBE 0x11 0x22 0x33 0x44 0x55 0x66 0x77 0x88 exX128 = .ok #v[0x44003300220011, 0x88007700660055] := by decide +kernel
example : ∃ M, MatrixcomM16to128 exEnvBE exA16 exB16 exA16 exB16 exA16 exB16 exA16 exB16 exB128 = .ok M ∧
    mat128 M ≠ blockDiag (k := 8) (a := 16) ![mat16 exA16, mat16 exB16, mat16 exA16, mat16 exB16, mat16 exA16, mat16 exB16, mat16 exA16, mat16 exB16] := by
  obtain ⟨M, h, -, hM⟩ := C22_MatrixcomM16to128 exEnvBE rfl exA16 exB16 exA16 exB16 exA16 exB16 exA16 exB16 exB128
  refine ⟨M, h, fun e => ?_⟩
  have h0 : mat16 exA16 = 0 := hM.1 e 0
  exact absurd (congrFun (congrFun h0 0) 0) (by decide +kernel)

end WB
