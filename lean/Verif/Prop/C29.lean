import Verif.Proof.RelAll
import Verif.Prop.Examples

/-!
# C29 — random functions are determined by seed xor clock

`w.randseed ^^^ w.clock w.now` is the value with which the first seeding of a call seeds the
generator: the counter before the call xor the next reading of the clock. The pair generators seed
twice; the second seeding sees the counter increased by one and the following clock reading.
-/
namespace WB
open Matrix

theorem rel_pair {α : Type} {x y : CM α} {w w' : World} {P : α → World → Prop}
    (h : RelC (fun p q => p.1 = q.1 ∧ GenEq p.2 q.2) (x w) (y w')) (hx : OkM x w P) :
    ∃ r v v', x w = .ok (r, v) ∧ y w' = .ok (r, v') ∧ v.m_index = v'.m_index ∧
      v.m_intermediateOffset = v'.m_intermediateOffset := by
  obtain ⟨⟨r, v⟩, hr, -⟩ := hx
  rw [hr] at h ⊢
  generalize y w' = y at h ⊢
  cases y with
  | error e => exact (RelC_ok_error h).elim
  | ok q =>
    rw [RelC_ok_iff] at h
    obtain ⟨r', v'⟩ := q
    obtain ⟨h1, h2, h3⟩ := h
    cases h1
    exact ⟨r, v, v', rfl, rfl, h2, h3⟩

/-- C29: `randM4` depends only on seed xor clock. -/
theorem C29_randM4 (X X' : M4) (w w' : World)
    (h : w.randseed ^^^ w.clock w.now = w'.randseed ^^^ w'.clock w'.now) :
    ∃ r v v', randM4 X w = .ok (r, v) ∧ randM4 X' w' = .ok (r, v') ∧
      v.m_index = v'.m_index ∧ v.m_intermediateOffset = v'.m_intermediateOffset := by
  obtain ⟨r, v, v', h1, h2, h3⟩ := randM4_rel X X' h
  exact ⟨r, v, v', h1, h2, h3.1, h3.2⟩

/-- C29: `randV4` depends only on seed xor clock. -/
theorem C29_randV4 (X X' : V4) (w w' : World)
    (h : w.randseed ^^^ w.clock w.now = w'.randseed ^^^ w'.clock w'.now) :
    ∃ r v v', randV4 X w = .ok (r, v) ∧ randV4 X' w' = .ok (r, v') ∧
      v.m_index = v'.m_index ∧ v.m_intermediateOffset = v'.m_intermediateOffset := by
  obtain ⟨r, v, v', h1, h2, h3⟩ := randV4_rel X X' h
  exact ⟨r, v, v', h1, h2, h3.1, h3.2⟩

/-- C29: `genMatpairM4` depends only on the seed xor clock of its second seeding; the first one,
the old contents of the outputs, the byte order and the stack garbage do not matter. -/
theorem C29_genMatpairM4 (env env' : Env) (A B A' B' : M4) (w w' : World)
    (h : (w.randseed + 1#32) ^^^ w.clock (w.now + 1) = (w'.randseed + 1#32) ^^^ w'.clock (w'.now + 1)) :
    ∃ r v v', genMatpairM4 env A B w = .ok (r, v) ∧ genMatpairM4 env' A' B' w' = .ok (r, v') ∧
      v.m_index = v'.m_index ∧ v.m_intermediateOffset = v'.m_intermediateOffset :=
  rel_pair (genMatpairM4_rel env env' A B A' B' h) (genMatpairM4_ok env A B w)

/-- C29: `randM8` depends only on seed xor clock. -/
theorem C29_randM8 (X X' : M8) (w w' : World)
    (h : w.randseed ^^^ w.clock w.now = w'.randseed ^^^ w'.clock w'.now) :
    ∃ r v v', randM8 X w = .ok (r, v) ∧ randM8 X' w' = .ok (r, v') ∧
      v.m_index = v'.m_index ∧ v.m_intermediateOffset = v'.m_intermediateOffset := by
  obtain ⟨r, v, v', h1, h2, h3⟩ := randM8_rel X X' h
  exact ⟨r, v, v', h1, h2, h3.1, h3.2⟩

/-- C29: `randV8` depends only on seed xor clock. -/
theorem C29_randV8 (X X' : V8) (w w' : World)
    (h : w.randseed ^^^ w.clock w.now = w'.randseed ^^^ w'.clock w'.now) :
    ∃ r v v', randV8 X w = .ok (r, v) ∧ randV8 X' w' = .ok (r, v') ∧
      v.m_index = v'.m_index ∧ v.m_intermediateOffset = v'.m_intermediateOffset := by
  obtain ⟨r, v, v', h1, h2, h3⟩ := randV8_rel X X' h
  exact ⟨r, v, v', h1, h2, h3.1, h3.2⟩

/-- C29: `genMatpairM8` depends only on the seed xor clock of its second seeding; the first one,
the old contents of the outputs, the byte order and the stack garbage do not matter. -/
theorem C29_genMatpairM8 (env env' : Env) (A B A' B' : M8) (w w' : World)
    (h : (w.randseed + 1#32) ^^^ w.clock (w.now + 1) = (w'.randseed + 1#32) ^^^ w'.clock (w'.now + 1)) :
    ∃ r v v', genMatpairM8 env A B w = .ok (r, v) ∧ genMatpairM8 env' A' B' w' = .ok (r, v') ∧
      v.m_index = v'.m_index ∧ v.m_intermediateOffset = v'.m_intermediateOffset :=
  rel_pair (genMatpairM8_rel env env' A B A' B' h) (genMatpairM8_ok env A B w)

/-- C29: `randM16` depends only on seed xor clock. -/
theorem C29_randM16 (X X' : M16) (w w' : World)
    (h : w.randseed ^^^ w.clock w.now = w'.randseed ^^^ w'.clock w'.now) :
    ∃ r v v', randM16 X w = .ok (r, v) ∧ randM16 X' w' = .ok (r, v') ∧
      v.m_index = v'.m_index ∧ v.m_intermediateOffset = v'.m_intermediateOffset := by
  obtain ⟨r, v, v', h1, h2, h3⟩ := randM16_rel X X' h
  exact ⟨r, v, v', h1, h2, h3.1, h3.2⟩

/-- C29: `randV16` depends only on seed xor clock. -/
theorem C29_randV16 (X X' : V16) (w w' : World)
    (h : w.randseed ^^^ w.clock w.now = w'.randseed ^^^ w'.clock w'.now) :
    ∃ r v v', randV16 X w = .ok (r, v) ∧ randV16 X' w' = .ok (r, v') ∧
      v.m_index = v'.m_index ∧ v.m_intermediateOffset = v'.m_intermediateOffset := by
  obtain ⟨r, v, v', h1, h2, h3⟩ := randV16_rel X X' h
  exact ⟨r, v, v', h1, h2, h3.1, h3.2⟩

/-- C29: `genMatpairM16` depends only on the seed xor clock of its second seeding; the first one,
the old contents of the outputs, the byte order and the stack garbage do not matter. -/
theorem C29_genMatpairM16 (env env' : Env) (A B A' B' : M16) (w w' : World)
    (h : (w.randseed + 1#32) ^^^ w.clock (w.now + 1) = (w'.randseed + 1#32) ^^^ w'.clock (w'.now + 1)) :
    ∃ r v v', genMatpairM16 env A B w = .ok (r, v) ∧ genMatpairM16 env' A' B' w' = .ok (r, v') ∧
      v.m_index = v'.m_index ∧ v.m_intermediateOffset = v'.m_intermediateOffset :=
  rel_pair (genMatpairM16_rel env env' A B A' B' h) (genMatpairM16_ok env A B w)

/-- C29: `randM32` depends only on seed xor clock. -/
theorem C29_randM32 (X X' : M32) (w w' : World)
    (h : w.randseed ^^^ w.clock w.now = w'.randseed ^^^ w'.clock w'.now) :
    ∃ r v v', randM32 X w = .ok (r, v) ∧ randM32 X' w' = .ok (r, v') ∧
      v.m_index = v'.m_index ∧ v.m_intermediateOffset = v'.m_intermediateOffset := by
  obtain ⟨r, v, v', h1, h2, h3⟩ := randM32_rel X X' h
  exact ⟨r, v, v', h1, h2, h3.1, h3.2⟩

/-- C29: `randV32` depends only on seed xor clock. -/
theorem C29_randV32 (X X' : V32) (w w' : World)
    (h : w.randseed ^^^ w.clock w.now = w'.randseed ^^^ w'.clock w'.now) :
    ∃ r v v', randV32 X w = .ok (r, v) ∧ randV32 X' w' = .ok (r, v') ∧
      v.m_index = v'.m_index ∧ v.m_intermediateOffset = v'.m_intermediateOffset := by
  obtain ⟨r, v, v', h1, h2, h3⟩ := randV32_rel X X' h
  exact ⟨r, v, v', h1, h2, h3.1, h3.2⟩

/-- C29: `genMatpairM32` depends only on the seed xor clock of its second seeding; the first one,
the old contents of the outputs, the byte order and the stack garbage do not matter. -/
theorem C29_genMatpairM32 (env env' : Env) (A B A' B' : M32) (w w' : World)
    (h : (w.randseed + 1#32) ^^^ w.clock (w.now + 1) = (w'.randseed + 1#32) ^^^ w'.clock (w'.now + 1)) :
    ∃ r v v', genMatpairM32 env A B w = .ok (r, v) ∧ genMatpairM32 env' A' B' w' = .ok (r, v') ∧
      v.m_index = v'.m_index ∧ v.m_intermediateOffset = v'.m_intermediateOffset :=
  rel_pair (genMatpairM32_rel env env' A B A' B' h) (genMatpairM32_ok env A B w)

/-- C29: `randM64` depends only on seed xor clock. -/
theorem C29_randM64 (env env' : Env) (he : env.endian = env'.endian) (X X' : M64) (w w' : World)
    (h : w.randseed ^^^ w.clock w.now = w'.randseed ^^^ w'.clock w'.now) :
    ∃ r v v', randM64 env X w = .ok (r, v) ∧ randM64 env' X' w' = .ok (r, v') ∧
      v.m_index = v'.m_index ∧ v.m_intermediateOffset = v'.m_intermediateOffset := by
  obtain ⟨r, v, v', h1, h2, h3⟩ := randM64_rel he X X' h
  exact ⟨r, v, v', h1, h2, h3.1, h3.2⟩

/-- C29: `genMatpairM64` depends only on the seed xor clock of its second seeding; the first one,
the old contents of the outputs and the stack garbage do not matter. -/
theorem C29_genMatpairM64 (env env' : Env) (he : env.endian = env'.endian) (A B A' B' : M64) (w w' : World)
    (h : (w.randseed + 1#32) ^^^ w.clock (w.now + 1) = (w'.randseed + 1#32) ^^^ w'.clock (w'.now + 1)) :
    ∃ r v v', genMatpairM64 env A B w = .ok (r, v) ∧ genMatpairM64 env' A' B' w' = .ok (r, v') ∧
      v.m_index = v'.m_index ∧ v.m_intermediateOffset = v'.m_intermediateOffset :=
  rel_pair (genMatpairM64_rel he A B A' B' h) (genMatpairM64_ok env A B w)

/-- C29: `randM128` depends only on seed xor clock. -/
theorem C29_randM128 (env env' : Env) (he : env.endian = env'.endian) (X X' : M128) (w w' : World)
    (h : w.randseed ^^^ w.clock w.now = w'.randseed ^^^ w'.clock w'.now) :
    ∃ r v v', randM128 env X w = .ok (r, v) ∧ randM128 env' X' w' = .ok (r, v') ∧
      v.m_index = v'.m_index ∧ v.m_intermediateOffset = v'.m_intermediateOffset := by
  obtain ⟨r, v, v', h1, h2, h3⟩ := randM128_rel he X X' h
  exact ⟨r, v, v', h1, h2, h3.1, h3.2⟩

/-- C29: `randV128` depends only on seed xor clock. -/
theorem C29_randV128 (env env' : Env) (he : env.endian = env'.endian) (X X' : V128) (w w' : World)
    (h : w.randseed ^^^ w.clock w.now = w'.randseed ^^^ w'.clock w'.now) :
    ∃ r v v', randV128 env X w = .ok (r, v) ∧ randV128 env' X' w' = .ok (r, v') ∧
      v.m_index = v'.m_index ∧ v.m_intermediateOffset = v'.m_intermediateOffset := by
  obtain ⟨r, v, v', h1, h2, h3⟩ := randV128_rel he X X' h
  exact ⟨r, v, v', h1, h2, h3.1, h3.2⟩

/-- C29: `genMatpairM128` depends only on the seed xor clock of its second seeding; the first one,
the old contents of the outputs and the stack garbage do not matter. -/
theorem C29_genMatpairM128 (env env' : Env) (he : env.endian = env'.endian) (A B A' B' : M128) (w w' : World)
    (h : (w.randseed + 1#32) ^^^ w.clock (w.now + 1) = (w'.randseed + 1#32) ^^^ w'.clock (w'.now + 1)) :
    ∃ r v v', genMatpairM128 env A B w = .ok (r, v) ∧ genMatpairM128 env' A' B' w' = .ok (r, v') ∧
      v.m_index = v'.m_index ∧ v.m_intermediateOffset = v'.m_intermediateOffset :=
  rel_pair (genMatpairM128_rel he A B A' B' h) (genMatpairM128_ok env A B w)

/-- C29: `randM256` depends only on seed xor clock. -/
theorem C29_randM256 (env env' : Env) (he : env.endian = env'.endian) (X X' : M256) (w w' : World)
    (h : w.randseed ^^^ w.clock w.now = w'.randseed ^^^ w'.clock w'.now) :
    ∃ r v v', randM256 env X w = .ok (r, v) ∧ randM256 env' X' w' = .ok (r, v') ∧
      v.m_index = v'.m_index ∧ v.m_intermediateOffset = v'.m_intermediateOffset := by
  obtain ⟨r, v, v', h1, h2, h3⟩ := randM256_rel he X X' h
  exact ⟨r, v, v', h1, h2, h3.1, h3.2⟩

/-- C29: `randV256` depends only on seed xor clock. -/
theorem C29_randV256 (env env' : Env) (he : env.endian = env'.endian) (X X' : V256) (w w' : World)
    (h : w.randseed ^^^ w.clock w.now = w'.randseed ^^^ w'.clock w'.now) :
    ∃ r v v', randV256 env X w = .ok (r, v) ∧ randV256 env' X' w' = .ok (r, v') ∧
      v.m_index = v'.m_index ∧ v.m_intermediateOffset = v'.m_intermediateOffset := by
  obtain ⟨r, v, v', h1, h2, h3⟩ := randV256_rel he X X' h
  exact ⟨r, v, v', h1, h2, h3.1, h3.2⟩

/-- C29: `genMatpairM256` depends only on the seed xor clock of its second seeding; the first one,
the old contents of the outputs and the stack garbage do not matter. -/
theorem C29_genMatpairM256 (env env' : Env) (he : env.endian = env'.endian) (A B A' B' : M256) (w w' : World)
    (h : (w.randseed + 1#32) ^^^ w.clock (w.now + 1) = (w'.randseed + 1#32) ^^^ w'.clock (w'.now + 1)) :
    ∃ r v v', genMatpairM256 env A B w = .ok (r, v) ∧ genMatpairM256 env' A' B' w' = .ok (r, v') ∧
      v.m_index = v'.m_index ∧ v.m_intermediateOffset = v'.m_intermediateOffset :=
  rel_pair (genMatpairM256_rel he A B A' B' h) (genMatpairM256_ok env A B w)

/-- Corollary: `SetRandSeed` with the same value and the same clock readings give the same pair. -/
theorem C29_SetRandSeed_genMatpairM8 (env env' : Env) (A B A' B' : M8) (w w' : World) (s : BitVec 32)
    (h : w.clock (w.now + 1) = w'.clock (w'.now + 1)) :
    ∃ r v v', (do SetRandSeed s; genMatpairM8 env A B) w = .ok (r, v) ∧
      (do SetRandSeed s; genMatpairM8 env' A' B') w' = .ok (r, v') := by
  have e : ∀ w, SetRandSeed s w = .ok ((), { w with randseed := s }) := fun _ => rfl
  rw [CM_bind_run (e w), CM_bind_run (e w')]
  obtain ⟨r, v, v', h1, h2, -⟩ := C29_genMatpairM8 env env' A B A' B' { w with randseed := s }
    { w' with randseed := s } (by simp only; rw [h])
  exact ⟨r, v, v', h1, h2⟩

/-- A second world with a different history: other counter, other clock, other generator state,
some output already printed. -/
def exWorld2 : World := ⟨5 ^^^ 1700000000 ^^^ 99, 1, 2, fun k => if k = 7 then 99 else 0, 7, ['x']⟩

example : exWorld.randseed ^^^ exWorld.clock exWorld.now =
    exWorld2.randseed ^^^ exWorld2.clock exWorld2.now := by decide +kernel

def exWorld3 : World := ⟨0, 0, 0, fun k => if k = 1 then 6 ^^^ 1700000000 ^^^ 1 else 3, 0, []⟩
example : (exWorld.randseed + 1#32) ^^^ exWorld.clock (exWorld.now + 1) =
    (exWorld3.randseed + 1#32) ^^^ exWorld3.clock (exWorld3.now + 1) := by decide +kernel

end WB
