import Verif.Prop.C12
import Verif.Prop.C13
import Verif.Prop.Examples

/-!
# C15 — generated pairs are mutually inverse
-/
namespace WB
open Matrix

set_option maxRecDepth 20000

/-- C15: `genMatpairM4` always succeeds and stores two matrices that are inverse to each other;
`isinvertM4` accepts both and `invsM4` of one is the other.  Besides advancing the generator
it increases the seed counter by two and reads the clock twice. -/
theorem C15_genMatpairM4 (env : Env) (A0 B0 : M4) (w : World) :
    ∃ A B w', genMatpairM4 env A0 B0 w = .ok ((A, B), w') ∧
      mat4 A * mat4 B = 1 ∧ mat4 B * mat4 A = 1 ∧
      isinvertM4 A = .ok 1 ∧ isinvertM4 B = .ok 1 ∧
      (∀ X, invsM4 A X = .ok B) ∧ (∀ X, invsM4 B X = .ok A) ∧ CleanM4 A ∧ CleanM4 B ∧
      w'.randseed = w.randseed + 2#32 ∧ w'.now = w.now + 2 ∧ w'.clock = w.clock ∧ w'.out = w.out := by
  obtain ⟨⟨⟨A, B⟩, w'⟩, h, hAB, hcA, hcB, hw⟩ := genMatpairM4_ok env A0 B0 w
  have hBA := mat_comm hAB
  have hA : IsUnit (mat4 A) := ⟨⟨_, _, hAB, hBA⟩, rfl⟩
  have hB : IsUnit (mat4 B) := ⟨⟨_, _, hBA, hAB⟩, rfl⟩
  refine ⟨A, B, w', h, hAB, hBA, ?_, ?_, ?_, ?_, hcA, hcB, hw⟩
  · rw [C12_isinvertM4 A hcA, if_pos hA]
  · rw [C12_isinvertM4 B hcB, if_pos hB]
  · intro X
    obtain ⟨Y, hY, h1, h2, hc⟩ := C13_invsM4 A X hA
    rw [hY, mat4_inj hc hcB (mat_inv_unique h1 hAB)]
  · intro X
    obtain ⟨Y, hY, h1, h2, hc⟩ := C13_invsM4 B X hB
    rw [hY, mat4_inj hc hcA (mat_inv_unique h1 hBA)]

example : (genMatpairM4 exEnv exB4 exB4 exWorld).toOption.isSome := by decide +kernel

/-- C15: `genMatpairM8` always succeeds and stores two matrices that are inverse to each other;
`isinvertM8` accepts both and `invsM8` of one is the other.  Besides advancing the generator
it increases the seed counter by two and reads the clock twice. -/
theorem C15_genMatpairM8 (env : Env) (A0 B0 : M8) (w : World) :
    ∃ A B w', genMatpairM8 env A0 B0 w = .ok ((A, B), w') ∧
      mat8 A * mat8 B = 1 ∧ mat8 B * mat8 A = 1 ∧
      isinvertM8 A = .ok 1 ∧ isinvertM8 B = .ok 1 ∧
      (∀ X, invsM8 A X = .ok B) ∧ (∀ X, invsM8 B X = .ok A) ∧
      w'.randseed = w.randseed + 2#32 ∧ w'.now = w.now + 2 ∧ w'.clock = w.clock ∧ w'.out = w.out := by
  obtain ⟨⟨⟨A, B⟩, w'⟩, h, hAB, hw⟩ := genMatpairM8_ok env A0 B0 w
  have hBA := mat_comm hAB
  have hA : IsUnit (mat8 A) := ⟨⟨_, _, hAB, hBA⟩, rfl⟩
  have hB : IsUnit (mat8 B) := ⟨⟨_, _, hBA, hAB⟩, rfl⟩
  refine ⟨A, B, w', h, hAB, hBA, ?_, ?_, ?_, ?_, hw⟩
  · rw [C12_isinvertM8, if_pos hA]
  · rw [C12_isinvertM8, if_pos hB]
  · intro X
    obtain ⟨Y, hY, h1, h2⟩ := C13_invsM8 A X hA
    rw [hY, mat8_inj (mat_inv_unique h1 hAB)]
  · intro X
    obtain ⟨Y, hY, h1, h2⟩ := C13_invsM8 B X hB
    rw [hY, mat8_inj (mat_inv_unique h1 hBA)]

example : (genMatpairM8 exEnv exB8 exB8 exWorld).toOption.isSome := by decide +kernel

/-- C15: `genMatpairM16` always succeeds and stores two matrices that are inverse to each other;
`isinvertM16` accepts both and `invsM16` of one is the other.  Besides advancing the generator
it increases the seed counter by two and reads the clock twice. -/
theorem C15_genMatpairM16 (env : Env) (A0 B0 : M16) (w : World) :
    ∃ A B w', genMatpairM16 env A0 B0 w = .ok ((A, B), w') ∧
      mat16 A * mat16 B = 1 ∧ mat16 B * mat16 A = 1 ∧
      isinvertM16 A = .ok 1 ∧ isinvertM16 B = .ok 1 ∧
      (∀ X, invsM16 A X = .ok B) ∧ (∀ X, invsM16 B X = .ok A) ∧
      w'.randseed = w.randseed + 2#32 ∧ w'.now = w.now + 2 ∧ w'.clock = w.clock ∧ w'.out = w.out := by
  obtain ⟨⟨⟨A, B⟩, w'⟩, h, hAB, hw⟩ := genMatpairM16_ok env A0 B0 w
  have hBA := mat_comm hAB
  have hA : IsUnit (mat16 A) := ⟨⟨_, _, hAB, hBA⟩, rfl⟩
  have hB : IsUnit (mat16 B) := ⟨⟨_, _, hBA, hAB⟩, rfl⟩
  refine ⟨A, B, w', h, hAB, hBA, ?_, ?_, ?_, ?_, hw⟩
  · rw [C12_isinvertM16, if_pos hA]
  · rw [C12_isinvertM16, if_pos hB]
  · intro X
    obtain ⟨Y, hY, h1, h2⟩ := C13_invsM16 A X hA
    rw [hY, mat16_inj (mat_inv_unique h1 hAB)]
  · intro X
    obtain ⟨Y, hY, h1, h2⟩ := C13_invsM16 B X hB
    rw [hY, mat16_inj (mat_inv_unique h1 hBA)]

/-- C15: `genMatpairM32` always succeeds and stores two matrices that are inverse to each other;
`isinvertM32` accepts both and `invsM32` of one is the other.  Besides advancing the generator
it increases the seed counter by two and reads the clock twice. -/
theorem C15_genMatpairM32 (env : Env) (A0 B0 : M32) (w : World) :
    ∃ A B w', genMatpairM32 env A0 B0 w = .ok ((A, B), w') ∧
      mat32 A * mat32 B = 1 ∧ mat32 B * mat32 A = 1 ∧
      isinvertM32 A = .ok 1 ∧ isinvertM32 B = .ok 1 ∧
      (∀ X, invsM32 A X = .ok B) ∧ (∀ X, invsM32 B X = .ok A) ∧
      w'.randseed = w.randseed + 2#32 ∧ w'.now = w.now + 2 ∧ w'.clock = w.clock ∧ w'.out = w.out := by
  obtain ⟨⟨⟨A, B⟩, w'⟩, h, hAB, hw⟩ := genMatpairM32_ok env A0 B0 w
  have hBA := mat_comm hAB
  have hA : IsUnit (mat32 A) := ⟨⟨_, _, hAB, hBA⟩, rfl⟩
  have hB : IsUnit (mat32 B) := ⟨⟨_, _, hBA, hAB⟩, rfl⟩
  refine ⟨A, B, w', h, hAB, hBA, ?_, ?_, ?_, ?_, hw⟩
  · rw [C12_isinvertM32, if_pos hA]
  · rw [C12_isinvertM32, if_pos hB]
  · intro X
    obtain ⟨Y, hY, h1, h2⟩ := C13_invsM32 A X hA
    rw [hY, mat32_inj (mat_inv_unique h1 hAB)]
  · intro X
    obtain ⟨Y, hY, h1, h2⟩ := C13_invsM32 B X hB
    rw [hY, mat32_inj (mat_inv_unique h1 hBA)]

/-- C15: `genMatpairM64` always succeeds and stores two matrices that are inverse to each other;
`isinvertM64` accepts both and `invsM64` of one is the other.  Besides advancing the generator
it increases the seed counter by two and reads the clock twice. -/
theorem C15_genMatpairM64 (env : Env) (A0 B0 : M64) (w : World) :
    ∃ A B w', genMatpairM64 env A0 B0 w = .ok ((A, B), w') ∧
      mat64 A * mat64 B = 1 ∧ mat64 B * mat64 A = 1 ∧
      isinvertM64 A = .ok 1 ∧ isinvertM64 B = .ok 1 ∧
      (∀ X, invsM64 A X = .ok B) ∧ (∀ X, invsM64 B X = .ok A) ∧
      w'.randseed = w.randseed + 2#32 ∧ w'.now = w.now + 2 ∧ w'.clock = w.clock ∧ w'.out = w.out := by
  obtain ⟨⟨⟨A, B⟩, w'⟩, h, hAB, hw⟩ := genMatpairM64_ok env A0 B0 w
  have hBA := mat_comm hAB
  have hA : IsUnit (mat64 A) := ⟨⟨_, _, hAB, hBA⟩, rfl⟩
  have hB : IsUnit (mat64 B) := ⟨⟨_, _, hBA, hAB⟩, rfl⟩
  refine ⟨A, B, w', h, hAB, hBA, ?_, ?_, ?_, ?_, hw⟩
  · rw [C12_isinvertM64, if_pos hA]
  · rw [C12_isinvertM64, if_pos hB]
  · intro X
    obtain ⟨Y, hY, h1, h2⟩ := C13_invsM64 A X hA
    rw [hY, mat64_inj (mat_inv_unique h1 hAB)]
  · intro X
    obtain ⟨Y, hY, h1, h2⟩ := C13_invsM64 B X hB
    rw [hY, mat64_inj (mat_inv_unique h1 hBA)]

/-- C15: `genMatpairM128` always succeeds and stores two matrices that are inverse to each other;
`isinvertM128` accepts both and `invsM128` of one is the other.  Besides advancing the generator
it increases the seed counter by two and reads the clock twice. -/
theorem C15_genMatpairM128 (env : Env) (A0 B0 : M128) (w : World) :
    ∃ A B w', genMatpairM128 env A0 B0 w = .ok ((A, B), w') ∧
      mat128 A * mat128 B = 1 ∧ mat128 B * mat128 A = 1 ∧
      isinvertM128 A = .ok 1 ∧ isinvertM128 B = .ok 1 ∧
      (∀ X, invsM128 A X = .ok B) ∧ (∀ X, invsM128 B X = .ok A) ∧
      w'.randseed = w.randseed + 2#32 ∧ w'.now = w.now + 2 ∧ w'.clock = w.clock ∧ w'.out = w.out := by
  obtain ⟨⟨⟨A, B⟩, w'⟩, h, hAB, hw⟩ := genMatpairM128_ok env A0 B0 w
  have hBA := mat_comm hAB
  have hA : IsUnit (mat128 A) := ⟨⟨_, _, hAB, hBA⟩, rfl⟩
  have hB : IsUnit (mat128 B) := ⟨⟨_, _, hBA, hAB⟩, rfl⟩
  refine ⟨A, B, w', h, hAB, hBA, ?_, ?_, ?_, ?_, hw⟩
  · rw [C12_isinvertM128, if_pos hA]
  · rw [C12_isinvertM128, if_pos hB]
  · intro X
    obtain ⟨Y, hY, h1, h2⟩ := C13_invsM128 A X hA
    rw [hY, mat128_inj (mat_inv_unique h1 hAB)]
  · intro X
    obtain ⟨Y, hY, h1, h2⟩ := C13_invsM128 B X hB
    rw [hY, mat128_inj (mat_inv_unique h1 hBA)]

/-- C15: `genMatpairM256` always succeeds and stores two matrices that are inverse to each other;
`isinvertM256` accepts both and `invsM256` of one is the other.  Besides advancing the generator
it increases the seed counter by two and reads the clock twice. -/
theorem C15_genMatpairM256 (env : Env) (A0 B0 : M256) (w : World) :
    ∃ A B w', genMatpairM256 env A0 B0 w = .ok ((A, B), w') ∧
      mat256 A * mat256 B = 1 ∧ mat256 B * mat256 A = 1 ∧
      isinvertM256 A = .ok 1 ∧ isinvertM256 B = .ok 1 ∧
      (∀ X, invsM256 A X = .ok B) ∧ (∀ X, invsM256 B X = .ok A) ∧
      w'.randseed = w.randseed + 2#32 ∧ w'.now = w.now + 2 ∧ w'.clock = w.clock ∧ w'.out = w.out := by
  obtain ⟨⟨⟨A, B⟩, w'⟩, h, hAB, hw⟩ := genMatpairM256_ok env A0 B0 w
  have hBA := mat_comm hAB
  have hA : IsUnit (mat256 A) := ⟨⟨_, _, hAB, hBA⟩, rfl⟩
  have hB : IsUnit (mat256 B) := ⟨⟨_, _, hBA, hAB⟩, rfl⟩
  refine ⟨A, B, w', h, hAB, hBA, ?_, ?_, ?_, ?_, hw⟩
  · rw [C12_isinvertM256, if_pos hA]
  · rw [C12_isinvertM256, if_pos hB]
  · intro X
    obtain ⟨Y, hY, h1, h2⟩ := C13_invsM256 A X hA
    rw [hY, mat256_inj (mat_inv_unique h1 hAB)]
  · intro X
    obtain ⟨Y, hY, h1, h2⟩ := C13_invsM256 B X hB
    rw [hY, mat256_inj (mat_inv_unique h1 hBA)]

end WB
