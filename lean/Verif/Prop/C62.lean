import Verif.Proof.ReachPair
import Verif.Prop.C31

/-!
# C62 — from size 32 on, different seed values give different matrices (written by tools/gen_c61.py)

`w.randseed ^^^ w.clock w.now` is the value with which a call seeds the generator: the counter before
the call xor the next reading of the clock.
-/
namespace WB
open Matrix

/-- C62: two calls of `randM32`, in any two states, return the same matrix exactly if they seed the
generator with the same value. -/
theorem C62_randM32 (X Y : M32) (w v : World) :
    ∃ S T w' v', randM32 X w = .ok (S, w') ∧ randM32 Y v = .ok (T, v') ∧
      (S = T ↔ w.randseed ^^^ w.clock w.now = v.randseed ^^^ v.clock v.now) := by
  refine ⟨_, _, _, _, randM32_gen X w, randM32_gen Y v, fun h => gen32_inj h, fun h => ?_⟩
  unfold seedOf
  rw [h]

/-- C62: two calls of `randM32` that read the same time, with any random calls but fewer than `2^32`
seedings between them, return different matrices. -/
theorem C62_randM32_same_second (env : Env) (X Y : M32) (between : List Call) (w : World)
    (hlt : 1 + seedings between < 2 ^ 32)
    (hclock : w.clock w.now = w.clock (w.now + 1 + seedings between)) :
    ∃ S w1 w2 T w3, randM32 X w = .ok (S, w1) ∧ runCalls env between w1 = .ok ((), w2) ∧
      randM32 Y w2 = .ok (T, w3) ∧ S ≠ T := by
  obtain ⟨w1, w2, w3, e1, e2, e3, h⟩ := C31_calls env (.randM32 X) (.randM32 Y) between w trivial trivial hlt hclock
  have f1 : (Call.randM32 X).run env w = .ok ((), _) := CM_bind_run (randM32_gen X w)
  have f3 : (Call.randM32 Y).run env w2 = .ok ((), _) := CM_bind_run (randM32_gen Y w2)
  rw [e1] at f1
  rw [e3] at f3
  obtain ⟨-, rfl⟩ := Prod.mk.inj (Except.ok.inj f1)
  obtain ⟨-, rfl⟩ := Prod.mk.inj (Except.ok.inj f3)
  refine ⟨_, _, w2, _, _, randM32_gen X w, e2, randM32_gen Y w2, fun hST => h ?_⟩
  have := gen32_inj hST
  show seedOff (seedOf w) = seedOff (seedOf w2)
  rw [this]

/-- C62: two calls of `randM64`, in any two states, return the same matrix exactly if they seed the
generator with the same value. -/
theorem C62_randM64 (env env' : Env) (he : env.endian = env'.endian) (X Y : M64) (w v : World) :
    ∃ S T w' v', randM64 env X w = .ok (S, w') ∧ randM64 env' Y v = .ok (T, v') ∧
      (S = T ↔ w.randseed ^^^ w.clock w.now = v.randseed ^^^ v.clock v.now) := by
  refine ⟨_, _, _, _, randM64_gen env X w, randM64_gen env' Y v, fun h => gen64_inj he h, fun h => ?_⟩
  unfold seedOf
  rw [h, gen64_congr he]

/-- C62: two calls of `randM64` that read the same time, with any random calls but fewer than `2^32`
seedings between them, return different matrices. -/
theorem C62_randM64_same_second (env : Env) (X Y : M64) (between : List Call) (w : World)
    (hlt : 1 + seedings between < 2 ^ 32)
    (hclock : w.clock w.now = w.clock (w.now + 1 + seedings between)) :
    ∃ S w1 w2 T w3, randM64 env X w = .ok (S, w1) ∧ runCalls env between w1 = .ok ((), w2) ∧
      randM64 env Y w2 = .ok (T, w3) ∧ S ≠ T := by
  obtain ⟨w1, w2, w3, e1, e2, e3, h⟩ := C31_calls env (.randM64 X) (.randM64 Y) between w trivial trivial hlt hclock
  have f1 : (Call.randM64 X).run env w = .ok ((), _) := CM_bind_run (randM64_gen env X w)
  have f3 : (Call.randM64 Y).run env w2 = .ok ((), _) := CM_bind_run (randM64_gen env Y w2)
  rw [e1] at f1
  rw [e3] at f3
  obtain ⟨-, rfl⟩ := Prod.mk.inj (Except.ok.inj f1)
  obtain ⟨-, rfl⟩ := Prod.mk.inj (Except.ok.inj f3)
  refine ⟨_, _, w2, _, _, randM64_gen env X w, e2, randM64_gen env Y w2, fun hST => h ?_⟩
  have := gen64_inj rfl hST
  show seedOff (seedOf w) = seedOff (seedOf w2)
  rw [this]

/-- C62: two calls of `randM128`, in any two states, return the same matrix exactly if they seed the
generator with the same value. -/
theorem C62_randM128 (env env' : Env) (he : env.endian = env'.endian) (X Y : M128) (w v : World) :
    ∃ S T w' v', randM128 env X w = .ok (S, w') ∧ randM128 env' Y v = .ok (T, v') ∧
      (S = T ↔ w.randseed ^^^ w.clock w.now = v.randseed ^^^ v.clock v.now) := by
  refine ⟨_, _, _, _, randM128_gen env X w, randM128_gen env' Y v, fun h => gen128_inj he h, fun h => ?_⟩
  unfold seedOf
  rw [h, gen128_congr he]

/-- C62: two calls of `randM128` that read the same time, with any random calls but fewer than `2^32`
seedings between them, return different matrices. -/
theorem C62_randM128_same_second (env : Env) (X Y : M128) (between : List Call) (w : World)
    (hlt : 1 + seedings between < 2 ^ 32)
    (hclock : w.clock w.now = w.clock (w.now + 1 + seedings between)) :
    ∃ S w1 w2 T w3, randM128 env X w = .ok (S, w1) ∧ runCalls env between w1 = .ok ((), w2) ∧
      randM128 env Y w2 = .ok (T, w3) ∧ S ≠ T := by
  obtain ⟨w1, w2, w3, e1, e2, e3, h⟩ := C31_calls env (.randM128 X) (.randM128 Y) between w trivial trivial hlt hclock
  have f1 : (Call.randM128 X).run env w = .ok ((), _) := CM_bind_run (randM128_gen env X w)
  have f3 : (Call.randM128 Y).run env w2 = .ok ((), _) := CM_bind_run (randM128_gen env Y w2)
  rw [e1] at f1
  rw [e3] at f3
  obtain ⟨-, rfl⟩ := Prod.mk.inj (Except.ok.inj f1)
  obtain ⟨-, rfl⟩ := Prod.mk.inj (Except.ok.inj f3)
  refine ⟨_, _, w2, _, _, randM128_gen env X w, e2, randM128_gen env Y w2, fun hST => h ?_⟩
  have := gen128_inj rfl hST
  show seedOff (seedOf w) = seedOff (seedOf w2)
  rw [this]

/-- C62: two calls of `randM256`, in any two states, return the same matrix exactly if they seed the
generator with the same value. -/
theorem C62_randM256 (env env' : Env) (he : env.endian = env'.endian) (X Y : M256) (w v : World) :
    ∃ S T w' v', randM256 env X w = .ok (S, w') ∧ randM256 env' Y v = .ok (T, v') ∧
      (S = T ↔ w.randseed ^^^ w.clock w.now = v.randseed ^^^ v.clock v.now) := by
  refine ⟨_, _, _, _, randM256_gen env X w, randM256_gen env' Y v, fun h => gen256_inj he h, fun h => ?_⟩
  unfold seedOf
  rw [h, gen256_congr he]

/-- C62: two calls of `randM256` that read the same time, with any random calls but fewer than `2^32`
seedings between them, return different matrices. -/
theorem C62_randM256_same_second (env : Env) (X Y : M256) (between : List Call) (w : World)
    (hlt : 1 + seedings between < 2 ^ 32)
    (hclock : w.clock w.now = w.clock (w.now + 1 + seedings between)) :
    ∃ S w1 w2 T w3, randM256 env X w = .ok (S, w1) ∧ runCalls env between w1 = .ok ((), w2) ∧
      randM256 env Y w2 = .ok (T, w3) ∧ S ≠ T := by
  obtain ⟨w1, w2, w3, e1, e2, e3, h⟩ := C31_calls env (.randM256 X) (.randM256 Y) between w trivial trivial hlt hclock
  have f1 : (Call.randM256 X).run env w = .ok ((), _) := CM_bind_run (randM256_gen env X w)
  have f3 : (Call.randM256 Y).run env w2 = .ok ((), _) := CM_bind_run (randM256_gen env Y w2)
  rw [e1] at f1
  rw [e3] at f3
  obtain ⟨-, rfl⟩ := Prod.mk.inj (Except.ok.inj f1)
  obtain ⟨-, rfl⟩ := Prod.mk.inj (Except.ok.inj f3)
  refine ⟨_, _, w2, _, _, randM256_gen env X w, e2, randM256_gen env Y w2, fun hST => h ?_⟩
  have := gen256_inj rfl hST
  show seedOff (seedOf w) = seedOff (seedOf w2)
  rw [this]

/-- Two states that seed alike although counter and clock differ, and two that do not. -/
example : (⟨5, 0, 0, fun _ => 8, 0, []⟩ : World).randseed ^^^ (8 : BitVec 32) = 4 ^^^ 9 ∧
    (5 : BitVec 32) ^^^ 8 ≠ 5 ^^^ 9 := by decide

example : 1 + seedings [.genMatpairM16 exA16 exB16, .randV64 7] < 2 ^ 32 ∧
    ({ exWorld with clock := fun _ => 9 } : World).clock 0 =
      ({ exWorld with clock := fun _ => 9 } : World).clock (0 + 1 + 2) := ⟨by decide, rfl⟩

end WB
