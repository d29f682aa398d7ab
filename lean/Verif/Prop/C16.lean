import Verif.Proof.ElimAll
import Verif.Prop.Examples

/-!
# C16 — pair generation never overruns its trail buffer
-/
namespace WB
open Matrix

set_option maxRecDepth 20000

/-- C16: `genMatpairM4` never has undefined behaviour: in particular no access to the trail
buffer of 16 entries or to any other array is out of bounds and no remainder by zero is taken. -/
theorem C16_genMatpairM4 (env : Env) (A0 B0 : M4) (w : World) (e : Fault) :
    genMatpairM4 env A0 B0 w ≠ .error e := by
  obtain ⟨p, h, _⟩ := genMatpairM4_ok env A0 B0 w
  rw [h]
  exact fun h => by cases h

example : ∃ p, genMatpairM4 exEnv exB4 exB4 exWorld = .ok p := by
  obtain ⟨p, h, _⟩ := genMatpairM4_ok exEnv exB4 exB4 exWorld
  exact ⟨p, h⟩

/-- C16: `genMatpairM8` never has undefined behaviour: in particular no access to the trail
buffer of 64 entries or to any other array is out of bounds and no remainder by zero is taken. -/
theorem C16_genMatpairM8 (env : Env) (A0 B0 : M8) (w : World) (e : Fault) :
    genMatpairM8 env A0 B0 w ≠ .error e := by
  obtain ⟨p, h, _⟩ := genMatpairM8_ok env A0 B0 w
  rw [h]
  exact fun h => by cases h

example : ∃ p, genMatpairM8 exEnv exB8 exB8 exWorld = .ok p := by
  obtain ⟨p, h, _⟩ := genMatpairM8_ok exEnv exB8 exB8 exWorld
  exact ⟨p, h⟩

/-- C16: `genMatpairM16` never has undefined behaviour: in particular no access to the trail
buffer of 256 entries or to any other array is out of bounds and no remainder by zero is taken. -/
theorem C16_genMatpairM16 (env : Env) (A0 B0 : M16) (w : World) (e : Fault) :
    genMatpairM16 env A0 B0 w ≠ .error e := by
  obtain ⟨p, h, _⟩ := genMatpairM16_ok env A0 B0 w
  rw [h]
  exact fun h => by cases h

example : ∃ p, genMatpairM16 exEnv exB16 exB16 exWorld = .ok p := by
  obtain ⟨p, h, _⟩ := genMatpairM16_ok exEnv exB16 exB16 exWorld
  exact ⟨p, h⟩

/-- C16: `genMatpairM32` never has undefined behaviour: in particular no access to the trail
buffer of 1024 entries or to any other array is out of bounds and no remainder by zero is taken. -/
theorem C16_genMatpairM32 (env : Env) (A0 B0 : M32) (w : World) (e : Fault) :
    genMatpairM32 env A0 B0 w ≠ .error e := by
  obtain ⟨p, h, _⟩ := genMatpairM32_ok env A0 B0 w
  rw [h]
  exact fun h => by cases h

example : ∃ p, genMatpairM32 exEnv exB32 exB32 exWorld = .ok p := by
  obtain ⟨p, h, _⟩ := genMatpairM32_ok exEnv exB32 exB32 exWorld
  exact ⟨p, h⟩

/-- C16: `genMatpairM64` never has undefined behaviour: in particular no access to the trail
buffer of 4096 entries or to any other array is out of bounds and no remainder by zero is taken. -/
theorem C16_genMatpairM64 (env : Env) (A0 B0 : M64) (w : World) (e : Fault) :
    genMatpairM64 env A0 B0 w ≠ .error e := by
  obtain ⟨p, h, _⟩ := genMatpairM64_ok env A0 B0 w
  rw [h]
  exact fun h => by cases h

example : ∃ p, genMatpairM64 exEnv exB64 exB64 exWorld = .ok p := by
  obtain ⟨p, h, _⟩ := genMatpairM64_ok exEnv exB64 exB64 exWorld
  exact ⟨p, h⟩

/-- C16: `genMatpairM128` never has undefined behaviour: in particular no access to the trail
buffer of 16384 entries or to any other array is out of bounds and no remainder by zero is taken. -/
theorem C16_genMatpairM128 (env : Env) (A0 B0 : M128) (w : World) (e : Fault) :
    genMatpairM128 env A0 B0 w ≠ .error e := by
  obtain ⟨p, h, _⟩ := genMatpairM128_ok env A0 B0 w
  rw [h]
  exact fun h => by cases h

example : ∃ p, genMatpairM128 exEnv exB128 exB128 exWorld = .ok p := by
  obtain ⟨p, h, _⟩ := genMatpairM128_ok exEnv exB128 exB128 exWorld
  exact ⟨p, h⟩

/-- C16: `genMatpairM256` never has undefined behaviour: in particular no access to the trail
buffer of 65536 entries or to any other array is out of bounds and no remainder by zero is taken. -/
theorem C16_genMatpairM256 (env : Env) (A0 B0 : M256) (w : World) (e : Fault) :
    genMatpairM256 env A0 B0 w ≠ .error e := by
  obtain ⟨p, h, _⟩ := genMatpairM256_ok env A0 B0 w
  rw [h]
  exact fun h => by cases h

example : ∃ p, genMatpairM256 exEnv exB256 exB256 exWorld = .ok p := by
  obtain ⟨p, h, _⟩ := genMatpairM256_ok exEnv exB256 exB256 exWorld
  exact ⟨p, h⟩

end WB
