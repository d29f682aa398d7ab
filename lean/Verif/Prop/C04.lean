import Verif.Proof.Inj
import Verif.Prop.Examples

/-!
# C04 — transposition
-/
namespace WB
open Matrix

set_option maxRecDepth 20000

/-- C04: `MattransM4` stores the transpose. -/
theorem C04_MattransM4 (env : Env) (A T0 : M4) (hA : CleanM4 A) :
    ∃ T, MattransM4 env A T0 = .ok T ∧ mat4 T = (mat4 A)ᵀ ∧ CleanM4 T :=
  MattransM4_ok env A T0 hA

/-- C04: transposing twice gives back the very same matrix object. -/
theorem C04_MattransM4_twice (env : Env) (A T0 T1 : M4) (hA : CleanM4 A) :
    ∃ T, MattransM4 env A T0 = .ok T ∧ MattransM4 env T T1 = .ok A := by
  obtain ⟨T, hT, h, hc⟩ := MattransM4_ok env A T0 hA
  obtain ⟨S, hS, h', hc'⟩ := MattransM4_ok env T T1 hc
  have e : S = A := mat4_inj hc' hA (by rw [h', h, transpose_transpose])
  exact ⟨T, hT, e ▸ hS⟩

example : MattransM4 exEnv exB4 exA4 = .ok #v[0x3, 0xb, 0x2, 0x3] := by decide +kernel

example : CleanM4 exB4 := exB4_clean

/-- C04: `MattransM8` stores the transpose. -/
theorem C04_MattransM8 (env : Env) (A T0 : M8) :
    ∃ T, MattransM8 env A T0 = .ok T ∧ mat8 T = (mat8 A)ᵀ :=
  MattransM8_ok env A T0

/-- C04: transposing twice gives back the very same matrix object. -/
theorem C04_MattransM8_twice (env : Env) (A T0 T1 : M8) :
    ∃ T, MattransM8 env A T0 = .ok T ∧ MattransM8 env T T1 = .ok A := by
  obtain ⟨T, hT, h⟩ := MattransM8_ok env A T0
  obtain ⟨S, hS, h'⟩ := MattransM8_ok env T T1
  have e : S = A := mat8_inj (by rw [h', h, transpose_transpose])
  exact ⟨T, hT, e ▸ hS⟩

example : MattransM8 exEnv exB8 exA8 = .ok #v[0xd5, 0x50, 0x21, 0xe7, 0x3c, 0xb3, 0x20, 0x3e] := by decide +kernel

/-- C04: `MattransM16` stores the transpose. -/
theorem C04_MattransM16 (env : Env) (A T0 : M16) :
    ∃ T, MattransM16 env A T0 = .ok T ∧ mat16 T = (mat16 A)ᵀ :=
  MattransM16_ok env A T0

/-- C04: transposing twice gives back the very same matrix object. -/
theorem C04_MattransM16_twice (env : Env) (A T0 T1 : M16) :
    ∃ T, MattransM16 env A T0 = .ok T ∧ MattransM16 env T T1 = .ok A := by
  obtain ⟨T, hT, h⟩ := MattransM16_ok env A T0
  obtain ⟨S, hS, h'⟩ := MattransM16_ok env T T1
  have e : S = A := mat16_inj (by rw [h', h, transpose_transpose])
  exact ⟨T, hT, e ▸ hS⟩

example : MattransM16 exEnv exB16 exA16 = .ok #v[0x852d, 0x124d, 0x5630, 0x4296, 0x8926, 0xab18, 0xa14b, 0x4493, 0xd583, 0x5056, 0x217c, 0xe79e, 0x3c46, 0xb306, 0x2036, 0x3e83] := by decide +kernel

/-- C04: `MattransM32` stores the transpose. -/
theorem C04_MattransM32 (env : Env) (A T0 : M32) :
    ∃ T, MattransM32 env A T0 = .ok T ∧ mat32 T = (mat32 A)ᵀ :=
  MattransM32_ok env A T0

/-- C04: transposing twice gives back the very same matrix object. -/
theorem C04_MattransM32_twice (env : Env) (A T0 T1 : M32) :
    ∃ T, MattransM32 env A T0 = .ok T ∧ MattransM32 env T T1 = .ok A := by
  obtain ⟨T, hT, h⟩ := MattransM32_ok env A T0
  obtain ⟨S, hS, h'⟩ := MattransM32_ok env T T1
  have e : S = A := mat32_inj (by rw [h', h, transpose_transpose])
  exact ⟨T, hT, e ▸ hS⟩

example : MattransM32 exEnv exB32 exA32 = .ok #v[0x8c373661, 0xa5b0d7c0, 0x49b48eca, 0xc61b9b30, 0x52d86be0, 0x24da4765, 0x630dcd98, 0x296c35f0, 0x926d23b2, 0xb186e6cc, 0x14b61af8, 0x493691d9, 0x58c37366, 0xa5b0d7c, 0x249b48ec, 0xac61b9b3, 0x852d86be, 0x124da476, 0x5630dcd9, 0x4296c35f, 0x8926d23b, 0xab186e6c, 0xa14b6050, 0x44939712, 0xd5833905, 0x50568202, 0x217ce2ee, 0xe79e16c3, 0x3c46cc7f, 0xb306f865, 0x20365898, 0x3e83c69f] := by decide +kernel

/-- C04: `MattransM64` stores the transpose. -/
theorem C04_MattransM64 (env : Env) (A T0 : M64) :
    ∃ T, MattransM64 env A T0 = .ok T ∧ mat64 T = (mat64 A)ᵀ :=
  MattransM64_ok env A T0

/-- C04: transposing twice gives back the very same matrix object. -/
theorem C04_MattransM64_twice (env : Env) (A T0 T1 : M64) :
    ∃ T, MattransM64 env A T0 = .ok T ∧ MattransM64 env T T1 = .ok A := by
  obtain ⟨T, hT, h⟩ := MattransM64_ok env A T0
  obtain ⟨S, hS, h'⟩ := MattransM64_ok env T T1
  have e : S = A := mat64_inj (by rw [h', h, transpose_transpose])
  exact ⟨T, hT, e ▸ hS⟩

example : MattransM64 exEnv exB64 exA64 = .ok #v[0x86be011d2476501d, 0xa476501ddcd985b3, 0xdcd985b3435f008e, 0xc35f008ed23b280e, 0xd23b280eee6cc2d9, 0x6e6cc2d9e1af8047, 0x61af8047691d9407, 0x691d94073736616c, 0x3736616cb0d7c023, 0xb0d7c023b48eca03, 0xb48eca039b9b30b6, 0x1b9b30b6586be011, 0xd86be011da476501, 0xda4765018dcd985b, 0xdcd985b6c35f008, 0x6c35f008ed23b280, 0x6d23b28086e6cc2d, 0x86e6cc2db61af804, 0xb61af8043691d940, 0x3691d94043736616, 0xc3736616db0d7c02, 0x5b0d7c021b48eca0, 0x9b48eca061b9b30b, 0x61b9b30b2d86be01, 0x2d86be014da47650, 0x4da4765030dcd985, 0x30dcd98596c35f00, 0x96c35f00a6d23b28, 0x26d23b28186e6cc2, 0x186e6cc2cb61af80, 0x4b61af8013691d94, 0x93691d940c373661, 0x8c37366125b0d7c0, 0xa5b0d7c049b48eca, 0x49b48eca461b9b30, 0xc61b9b30d2d86be0, 0x52d86be024da4765, 0x24da4765630dcd98, 0x630dcd98296c35f0, 0x296c35f0126d23b2, 0x926d23b2b186e6cc, 0xb186e6cc14b61af8, 0x14b61af8493691d9, 0x493691d958c37366, 0x58c373660a5b0d7c, 0xa5b0d7c249b48ec, 0x249b48ecac61b9b3, 0xac61b9b3052d86be, 0x852d86be124da476, 0x124da4765630dcd9, 0x5630dcd9c296c35f, 0x4296c35f0926d23b, 0x8926d23b2b1b9193, 0xab186e6c5eb76150, 0xa14b6050c46f7612, 0x44939712da90d405, 0xd583390563c89d82, 0x50568202f7efd30e, 0x217ce2eee9f34dfb, 0xe79e16c3250ad533, 0x3c46cc7f8530ce53, 0xb306f86557412fef, 0x20365898c17c3960, 0x3e83c69f6238c789] := by decide +kernel

/-- C04: `MattransM128` stores the transpose. -/
theorem C04_MattransM128 (env : Env) (A T0 : M128) :
    ∃ T, MattransM128 env A T0 = .ok T ∧ mat128 T = (mat128 A)ᵀ :=
  MattransM128_ok env A T0

/-- C04: transposing twice gives back the very same matrix object. -/
theorem C04_MattransM128_twice (env : Env) (A T0 T1 : M128) :
    ∃ T, MattransM128 env A T0 = .ok T ∧ MattransM128 env T T1 = .ok A := by
  obtain ⟨T, hT, h⟩ := MattransM128_ok env A T0
  obtain ⟨S, hS, h'⟩ := MattransM128_ok env T T1
  have e : S = A := mat128_inj (by rw [h', h, transpose_transpose])
  exact ⟨T, hT, e ▸ hS⟩

example : ∃ T, MattransM128 exEnv exB128 exA128 = .ok T ∧ mat128 T = (mat128 exB128)ᵀ :=
  C04_MattransM128 exEnv exB128 exA128

/-- C04: `MattransM256` stores the transpose. -/
theorem C04_MattransM256 (env : Env) (A T0 : M256) :
    ∃ T, MattransM256 env A T0 = .ok T ∧ mat256 T = (mat256 A)ᵀ :=
  MattransM256_ok env A T0

/-- C04: transposing twice gives back the very same matrix object. -/
theorem C04_MattransM256_twice (env : Env) (A T0 T1 : M256) :
    ∃ T, MattransM256 env A T0 = .ok T ∧ MattransM256 env T T1 = .ok A := by
  obtain ⟨T, hT, h⟩ := MattransM256_ok env A T0
  obtain ⟨S, hS, h'⟩ := MattransM256_ok env T T1
  have e : S = A := mat256_inj (by rw [h', h, transpose_transpose])
  exact ⟨T, hT, e ▸ hS⟩

example : ∃ T, MattransM256 exEnv exB256 exA256 = .ok T ∧ mat256 T = (mat256 exB256)ᵀ :=
  C04_MattransM256 exEnv exB256 exA256

end WB
