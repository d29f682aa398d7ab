import Verif.Proof.Add
import Verif.Prop.Examples

/-!
# C05 — addition
-/
namespace WB
open Matrix

set_option maxRecDepth 20000

/-- C05: `MatAddMatM4` stores the entrywise sum. -/
theorem C05_MatAddMatM4 (A B C0 : M4) :
    ∃ C, MatAddMatM4 A B C0 = .ok C ∧ mat4 C = mat4 A + mat4 B ∧ (CleanM4 A → CleanM4 B → CleanM4 C) :=
  ⟨_, MatAddMatM4_eq A B C0, mat_add A B, fun hA hB i => by
    have := clean4_xor (hA i) (hB i)
    simpa using this⟩

/-- C05: `VecAddVecV4` stores the entrywise sum. -/
theorem C05_VecAddVecV4 (x y z0 : V4) :
    ∃ z, VecAddVecV4 x y z0 = .ok z ∧ vec4 z = vec4 x + vec4 y ∧ (Clean4 x → Clean4 y → Clean4 z) :=
  ⟨_, rfl, vec_add x y, clean4_xor⟩

/-- C05: addition of matrices is commutative, associative and self-inverse, as observed through the API
(equality of the stored objects, whatever the destinations held). -/
theorem C05_MatAddMatM4_laws (A B D X0 X1 X2 X3 X4 X5 : M4) :
    (∃ S, MatAddMatM4 A B X0 = .ok S ∧ MatAddMatM4 B A X1 = .ok S) ∧
    (∃ S T U, MatAddMatM4 A B X0 = .ok S ∧ MatAddMatM4 S D X2 = .ok U ∧
      MatAddMatM4 B D X3 = .ok T ∧ MatAddMatM4 A T X4 = .ok U) ∧
    (∃ Z, MatAddMatM4 A A X5 = .ok Z ∧ initM4 X0 = .ok Z) := by
  refine ⟨⟨_, MatAddMatM4_eq _ _ _, ?_⟩, ⟨_, _, _, MatAddMatM4_eq _ _ _, MatAddMatM4_eq _ _ _,
    MatAddMatM4_eq _ _ _, ?_⟩, ⟨_, MatAddMatM4_eq _ _ _, ?_⟩⟩
  · rw [MatAddMatM4_eq]
    exact congrArg Except.ok (Vector.ext fun i hi => by simp [BitVec.xor_comm])
  · rw [MatAddMatM4_eq]
    exact congrArg Except.ok (Vector.ext fun i hi => by simp [BitVec.xor_assoc])
  · rw [initM4_eq]
    exact congrArg Except.ok (Vector.ext fun i hi => by simp)

example : MatAddMatM4 exA4 exB4 exB4 = .ok #v[0x8, 0x6, 0xc, 0xc] := by decide +kernel
example : VecAddVecV4 exX4 0x3a exX4 = .ok 0x3b := by decide +kernel

/-- C05: `MatAddMatM8` stores the entrywise sum. -/
theorem C05_MatAddMatM8 (A B C0 : M8) :
    ∃ C, MatAddMatM8 A B C0 = .ok C ∧ mat8 C = mat8 A + mat8 B :=
  ⟨_, MatAddMatM8_eq A B C0, mat_add A B⟩

/-- C05: `VecAddVecV8` stores the entrywise sum. -/
theorem C05_VecAddVecV8 (x y z0 : V8) :
    ∃ z, VecAddVecV8 x y z0 = .ok z ∧ vec8 z = vec8 x + vec8 y :=
  ⟨_, rfl, vec_add x y⟩

/-- C05: addition of matrices is commutative, associative and self-inverse, as observed through the API
(equality of the stored objects, whatever the destinations held). -/
theorem C05_MatAddMatM8_laws (A B D X0 X1 X2 X3 X4 X5 : M8) :
    (∃ S, MatAddMatM8 A B X0 = .ok S ∧ MatAddMatM8 B A X1 = .ok S) ∧
    (∃ S T U, MatAddMatM8 A B X0 = .ok S ∧ MatAddMatM8 S D X2 = .ok U ∧
      MatAddMatM8 B D X3 = .ok T ∧ MatAddMatM8 A T X4 = .ok U) ∧
    (∃ Z, MatAddMatM8 A A X5 = .ok Z ∧ initM8 X0 = .ok Z) := by
  refine ⟨⟨_, MatAddMatM8_eq _ _ _, ?_⟩, ⟨_, _, _, MatAddMatM8_eq _ _ _, MatAddMatM8_eq _ _ _,
    MatAddMatM8_eq _ _ _, ?_⟩, ⟨_, MatAddMatM8_eq _ _ _, ?_⟩⟩
  · rw [MatAddMatM8_eq]
    exact congrArg Except.ok (Vector.ext fun i hi => by simp [BitVec.xor_comm])
  · rw [MatAddMatM8_eq]
    exact congrArg Except.ok (Vector.ext fun i hi => by simp [BitVec.xor_assoc])
  · rw [initM8_eq]
    exact congrArg Except.ok (Vector.ext fun i hi => by simp)

example : MatAddMatM8 exA8 exB8 exB8 = .ok #v[0x54, 0xb0, 0xf, 0xd5, 0x5, 0x9f, 0x16, 0xb5] := by decide +kernel
example : VecAddVecV8 exX8 0x3a exX8 = .ok 0xcb := by decide +kernel

/-- C05: `MatAddMatM16` stores the entrywise sum. -/
theorem C05_MatAddMatM16 (A B C0 : M16) :
    ∃ C, MatAddMatM16 A B C0 = .ok C ∧ mat16 C = mat16 A + mat16 B :=
  ⟨_, MatAddMatM16_eq A B C0, mat_add A B⟩

/-- C05: `VecAddVecV16` stores the entrywise sum. -/
theorem C05_VecAddVecV16 (x y z0 : V16) :
    ∃ z, VecAddVecV16 x y z0 = .ok z ∧ vec16 z = vec16 x + vec16 y :=
  ⟨_, rfl, vec_add x y⟩

/-- C05: addition of matrices is commutative, associative and self-inverse, as observed through the API
(equality of the stored objects, whatever the destinations held). -/
theorem C05_MatAddMatM16_laws (A B D X0 X1 X2 X3 X4 X5 : M16) :
    (∃ S, MatAddMatM16 A B X0 = .ok S ∧ MatAddMatM16 B A X1 = .ok S) ∧
    (∃ S T U, MatAddMatM16 A B X0 = .ok S ∧ MatAddMatM16 S D X2 = .ok U ∧
      MatAddMatM16 B D X3 = .ok T ∧ MatAddMatM16 A T X4 = .ok U) ∧
    (∃ Z, MatAddMatM16 A A X5 = .ok Z ∧ initM16 X0 = .ok Z) := by
  refine ⟨⟨_, MatAddMatM16_eq _ _ _, ?_⟩, ⟨_, _, _, MatAddMatM16_eq _ _ _, MatAddMatM16_eq _ _ _,
    MatAddMatM16_eq _ _ _, ?_⟩, ⟨_, MatAddMatM16_eq _ _ _, ?_⟩⟩
  · rw [MatAddMatM16_eq]
    exact congrArg Except.ok (Vector.ext fun i hi => by simp [BitVec.xor_comm])
  · rw [MatAddMatM16_eq]
    exact congrArg Except.ok (Vector.ext fun i hi => by simp [BitVec.xor_assoc])
  · rw [initM16_eq]
    exact congrArg Except.ok (Vector.ext fun i hi => by simp)

example : MatAddMatM16 exA16 exB16 exB16 = .ok #v[0x4e94, 0x51d0, 0x363f, 0x78cd, 0x9, 0xa799, 0x7715, 0x8f34, 0x1151, 0x4208, 0xa812, 0x356a, 0xc63c, 0xd878, 0x1bdc, 0xc380] := by decide +kernel
example : VecAddVecV16 exX16 0x3a exX16 = .ok 0xdecb := by decide +kernel

/-- C05: `MatAddMatM32` stores the entrywise sum. -/
theorem C05_MatAddMatM32 (A B C0 : M32) :
    ∃ C, MatAddMatM32 A B C0 = .ok C ∧ mat32 C = mat32 A + mat32 B :=
  ⟨_, MatAddMatM32_eq A B C0, mat_add A B⟩

/-- C05: `VecAddVecV32` stores the entrywise sum. -/
theorem C05_VecAddVecV32 (x y z0 : V32) :
    ∃ z, VecAddVecV32 x y z0 = .ok z ∧ vec32 z = vec32 x + vec32 y :=
  ⟨_, rfl, vec_add x y⟩

/-- C05: addition of matrices is commutative, associative and self-inverse, as observed through the API
(equality of the stored objects, whatever the destinations held). -/
theorem C05_MatAddMatM32_laws (A B D X0 X1 X2 X3 X4 X5 : M32) :
    (∃ S, MatAddMatM32 A B X0 = .ok S ∧ MatAddMatM32 B A X1 = .ok S) ∧
    (∃ S T U, MatAddMatM32 A B X0 = .ok S ∧ MatAddMatM32 S D X2 = .ok U ∧
      MatAddMatM32 B D X3 = .ok T ∧ MatAddMatM32 A T X4 = .ok U) ∧
    (∃ Z, MatAddMatM32 A A X5 = .ok Z ∧ initM32 X0 = .ok Z) := by
  refine ⟨⟨_, MatAddMatM32_eq _ _ _, ?_⟩, ⟨_, _, _, MatAddMatM32_eq _ _ _, MatAddMatM32_eq _ _ _,
    MatAddMatM32_eq _ _ _, ?_⟩, ⟨_, MatAddMatM32_eq _ _ _, ?_⟩⟩
  · rw [MatAddMatM32_eq]
    exact congrArg Except.ok (Vector.ext fun i hi => by simp [BitVec.xor_comm])
  · rw [MatAddMatM32_eq]
    exact congrArg Except.ok (Vector.ext fun i hi => by simp [BitVec.xor_assoc])
  · rw [initM32_eq]
    exact congrArg Except.ok (Vector.ext fun i hi => by simp)

example : MatAddMatM32 exA32 exB32 exB32 = .ok #v[0x10c18e94, 0x5a1831d0, 0x7743063f, 0x10e860cd, 0xad1d0c09, 0xd223a199, 0x19847415, 0x62d08eb4, 0x6caa1191, 0xded4268, 0xe181a822, 0xfc2e3572, 0x1f8ac630, 0xa3f6d87e, 0x947d1bdf, 0x928e4381, 0x7251396d, 0x4e4a5e2f, 0x89c976a4, 0xd1393196, 0x3a27288e, 0xe744e319, 0xfce89e71, 0x5f9d1000, 0x6bf3a0f3, 0xed7e765c, 0x9dafcc1c, 0x13b5fb13, 0x2276bc27, 0x44ed4ab, 0x2089d97a, 0x8411389c] := by decide +kernel
example : VecAddVecV32 exX32 0x3a exX32 = .ok 0x9abcdecb := by decide +kernel

/-- C05: `MatAddMatM64` stores the entrywise sum. -/
theorem C05_MatAddMatM64 (A B C0 : M64) :
    ∃ C, MatAddMatM64 A B C0 = .ok C ∧ mat64 C = mat64 A + mat64 B :=
  ⟨_, MatAddMatM64_eq A B C0, mat_add A B⟩

/-- C05: `VecAddVecV64` stores the entrywise sum. -/
theorem C05_VecAddVecV64 (x y z0 : V64) :
    ∃ z, VecAddVecV64 x y z0 = .ok z ∧ vec64 z = vec64 x + vec64 y :=
  ⟨_, rfl, vec_add x y⟩

/-- C05: addition of matrices is commutative, associative and self-inverse, as observed through the API
(equality of the stored objects, whatever the destinations held). -/
theorem C05_MatAddMatM64_laws (A B D X0 X1 X2 X3 X4 X5 : M64) :
    (∃ S, MatAddMatM64 A B X0 = .ok S ∧ MatAddMatM64 B A X1 = .ok S) ∧
    (∃ S T U, MatAddMatM64 A B X0 = .ok S ∧ MatAddMatM64 S D X2 = .ok U ∧
      MatAddMatM64 B D X3 = .ok T ∧ MatAddMatM64 A T X4 = .ok U) ∧
    (∃ Z, MatAddMatM64 A A X5 = .ok Z ∧ initM64 X0 = .ok Z) := by
  refine ⟨⟨_, MatAddMatM64_eq _ _ _, ?_⟩, ⟨_, _, _, MatAddMatM64_eq _ _ _, MatAddMatM64_eq _ _ _,
    MatAddMatM64_eq _ _ _, ?_⟩, ⟨_, MatAddMatM64_eq _ _ _, ?_⟩⟩
  · rw [MatAddMatM64_eq]
    exact congrArg Except.ok (Vector.ext fun i hi => by simp [BitVec.xor_comm])
  · rw [MatAddMatM64_eq]
    exact congrArg Except.ok (Vector.ext fun i hi => by simp [BitVec.xor_assoc])
  · rw [initM64_eq]
    exact congrArg Except.ok (Vector.ext fun i hi => by simp)

example : MatAddMatM64 exA64 exB64 exB64 = .ok #v[0x386c6a11d0c18e94, 0x5f0d8d423a1831d0, 0x77e1b1a84743063f, 0x30fc363508e860cd, 0x291f86c6a11d0c09, 0xe2a3f0d8d423a199, 0x9f947e1b1a847415, 0x12128fc363508eb4, 0xa2b251f86c6a1191, 0x742e4a3f0d8d4268, 0xceb9c947e1b1a822, 0xf9c93928fc363572, 0xbf3627251f86c630, 0xd7e144e4a3f0d87e, 0xdaffe89c947e1bdf, 0x3b5e1d13928fc381, 0x276b33a27251f96d, 0x44ed1e744e4a3e2f, 0x89d9fce89c946a4, 0x4113adf9d1392996, 0x8227abf3a27248e, 0x210448d7e744e519, 0x4208adafce89d71, 0xa08410bb5f9d1180, 0x341082e76bf3a033, 0x6821024ed7e763c, 0x20d042389dafcc2c, 0xe41a085913b5fb0b, 0xdc8341042276bc2b, 0xdb906827044ed4ad, 0x3b720d072089d979, 0xe76e41a10411389d, 0x5cedc834d082236a, 0x7e1b1a84143067e7, 0x8fc36350be8608f1, 0x51f86c6a09d0c544, 0x4a3f0d8d4e3a1d20, 0xc947e1b1ae47465c, 0x3928fc363608edc5, 0x27251f86c72118fe, 0x44e4a3f0d81425e0, 0xe89c947e1b7a82e6, 0x9d13928fc353566b, 0xf3a27251f8746d2b, 0x7e744e4a3f018ad3, 0xafce89c947e7b642, 0xb5f9d13928ff3e70, 0x76bf3a27251e0e64, 0x4ed7e744e4a339d9, 0x89dafce89c941779, 0x113b5f9d1392b606, 0x82276bf3a27243d2, 0x1044ed7e744e4cae, 0x42089dafce89c5bd, 0x84113b5f9d1314d, 0x41082276bf3a2d77, 0x6821044ed7e74865, 0xd042089dafce44e, 0x41a084113b5f9006, 0xc8341082276bfe20, 0xb906821044ed7069, 0xb720d042089da142, 0x76e41a084113baff, 0xcedc83410822793c] := by decide +kernel
example : VecAddVecV64 exX64 0x3a exX64 = .ok 0x123456789abcdecb := by decide +kernel

/-- C05: `MatAddMatM128` stores the entrywise sum. -/
theorem C05_MatAddMatM128 (A B C0 : M128) :
    ∃ C, MatAddMatM128 A B C0 = .ok C ∧ mat128 C = mat128 A + mat128 B := by
  obtain ⟨C, hC, h⟩ := MatAddMatM128_ok A B C0
  exact ⟨C, hC, matW_addmat (by norm_num) h⟩

/-- C05: `VecAddVecV128` stores the entrywise sum. -/
theorem C05_VecAddVecV128 (x y z0 : V128) :
    ∃ z, VecAddVecV128 x y z0 = .ok z ∧ vec128 z = vec128 x + vec128 y := by
  obtain ⟨z, hz, h⟩ := VecAddVecV128_ok x y z0
  exact ⟨z, hz, vecW_add (by norm_num) h⟩

/-- C05: addition of matrices is commutative, associative and self-inverse, as observed through the API
(equality of the stored objects, whatever the destinations held). -/
theorem C05_MatAddMatM128_laws (A B D X0 X1 X2 X3 X4 X5 : M128) :
    (∃ S, MatAddMatM128 A B X0 = .ok S ∧ MatAddMatM128 B A X1 = .ok S) ∧
    (∃ S T U, MatAddMatM128 A B X0 = .ok S ∧ MatAddMatM128 S D X2 = .ok U ∧
      MatAddMatM128 B D X3 = .ok T ∧ MatAddMatM128 A T X4 = .ok U) ∧
    (∃ Z, MatAddMatM128 A A X5 = .ok Z ∧ initM128 X0 = .ok Z) := by
  obtain ⟨S, hS, s⟩ := C05_MatAddMatM128 A B X0
  obtain ⟨S', hS', s'⟩ := C05_MatAddMatM128 B A X1
  obtain ⟨U, hU, u⟩ := C05_MatAddMatM128 S D X2
  obtain ⟨T, hT, t⟩ := C05_MatAddMatM128 B D X3
  obtain ⟨U', hU', u'⟩ := C05_MatAddMatM128 A T X4
  obtain ⟨Z, hZ, z⟩ := C05_MatAddMatM128 A A X5
  have e1 : S' = S := mat128_inj (by rw [s, s', add_comm])
  have e2 : U' = U := mat128_inj (by rw [u, u', s, t, add_assoc])
  have e3 : Vector.replicate 128 (Vector.replicate 2 0) = Z := mat128_inj (by
    rw [z, z2mat_add_self]; exact matW_zero (by norm_num))
  exact ⟨⟨S, hS, e1 ▸ hS'⟩, ⟨S, T, U, hS, hU, hT, e2 ▸ hU'⟩, ⟨Z, hZ, e3 ▸ initM128_eq X0⟩⟩
example : VecAddVecV128 exX128 #v[0x0, 0x3a] exX128 = .ok #v[0xa5a55a5a0ff0f00f, 0x123456789abcdecb] := by decide +kernel

/-- C05: `MatAddMatM256` stores the entrywise sum. -/
theorem C05_MatAddMatM256 (A B C0 : M256) :
    ∃ C, MatAddMatM256 A B C0 = .ok C ∧ mat256 C = mat256 A + mat256 B := by
  obtain ⟨C, hC, h⟩ := MatAddMatM256_ok A B C0
  exact ⟨C, hC, matW_addmat (by norm_num) h⟩

/-- C05: `VecAddVecV256` stores the entrywise sum. -/
theorem C05_VecAddVecV256 (x y z0 : V256) :
    ∃ z, VecAddVecV256 x y z0 = .ok z ∧ vec256 z = vec256 x + vec256 y := by
  obtain ⟨z, hz, h⟩ := VecAddVecV256_ok x y z0
  exact ⟨z, hz, vecW_add (by norm_num) h⟩

/-- C05: addition of matrices is commutative, associative and self-inverse, as observed through the API
(equality of the stored objects, whatever the destinations held). -/
theorem C05_MatAddMatM256_laws (A B D X0 X1 X2 X3 X4 X5 : M256) :
    (∃ S, MatAddMatM256 A B X0 = .ok S ∧ MatAddMatM256 B A X1 = .ok S) ∧
    (∃ S T U, MatAddMatM256 A B X0 = .ok S ∧ MatAddMatM256 S D X2 = .ok U ∧
      MatAddMatM256 B D X3 = .ok T ∧ MatAddMatM256 A T X4 = .ok U) ∧
    (∃ Z, MatAddMatM256 A A X5 = .ok Z ∧ initM256 X0 = .ok Z) := by
  obtain ⟨S, hS, s⟩ := C05_MatAddMatM256 A B X0
  obtain ⟨S', hS', s'⟩ := C05_MatAddMatM256 B A X1
  obtain ⟨U, hU, u⟩ := C05_MatAddMatM256 S D X2
  obtain ⟨T, hT, t⟩ := C05_MatAddMatM256 B D X3
  obtain ⟨U', hU', u'⟩ := C05_MatAddMatM256 A T X4
  obtain ⟨Z, hZ, z⟩ := C05_MatAddMatM256 A A X5
  have e1 : S' = S := mat256_inj (by rw [s, s', add_comm])
  have e2 : U' = U := mat256_inj (by rw [u, u', s, t, add_assoc])
  have e3 : Vector.replicate 256 (Vector.replicate 4 0) = Z := mat256_inj (by
    rw [z, z2mat_add_self]; exact matW_zero (by norm_num))
  exact ⟨⟨S, hS, e1 ▸ hS'⟩, ⟨S, T, U, hS, hU, hT, e2 ▸ hU'⟩, ⟨Z, hZ, e3 ▸ initM256_eq X0⟩⟩
example : VecAddVecV256 exX256 #v[0x0, 0x0, 0x0, 0x3a] exX256 = .ok #v[0xb5c3a17d9e2f6048, 0x1357fdb9eca86420, 0xa5a55a5a0ff0f00f, 0x123456789abcdecb] := by decide +kernel

end WB
