import Verif.Proof.RelAll
import Verif.Prop.Examples

/-!
# C32 — `randV64` and `SetRandSeed` (violated)
-/
namespace WB
open Matrix

/-- C32 is false: whatever seed was set, whatever the clock shows, `randV64` returns the same vector; it only
depends on the state in which earlier calls left the generator. -/
theorem C32_randV64_violated (env : Env) (X Y : V64) (s t : BitVec 32) (clock clock' : Nat → BitVec 32)
    (now now' : Nat) (w : World) :
    ∃ r v v', (do SetRandSeed s; randV64 env X) { w with clock := clock, now := now } = .ok (r, v) ∧
      (do SetRandSeed t; randV64 env Y) { w with clock := clock', now := now' } = .ok (r, v') := by
  have e : ∀ s w, SetRandSeed s w = .ok ((), { w with randseed := s }) := fun _ _ => rfl
  rw [CM_bind_run (e s _), CM_bind_run (e t _)]
  obtain ⟨r, v, v', h1, h2, -⟩ := randV64_rel (rfl : env.endian = env.endian) X Y
    (w := { w with clock := clock, now := now, randseed := s })
    (w' := { w with clock := clock', now := now', randseed := t }) ⟨rfl, rfl⟩
  exact ⟨r, v, v', h1, h2⟩

/-- C32 is false: in a fresh process (both words of the generator state are 0) the first `randV64` returns the
constant `0x1f1aea94a11423b` on a little-endian machine, whatever `SetRandSeed` was given. -/
theorem C32_randV64_fresh_violated (env : Env) (he : env.endian = .little) (X : V64) (s : BitVec 32) (w : World)
    (h1 : w.m_index = 0) (h2 : w.m_intermediateOffset = 0) :
    ∃ v, (do SetRandSeed s; randV64 env X) w = .ok (0x1f1aea94a11423b#64, v) := by
  have e : ∀ s w, SetRandSeed s w = .ok ((), { w with randseed := s }) := fun _ _ => rfl
  rw [CM_bind_run (e s _), randV64_run]
  refine ⟨_, congrArg (fun x => Except.ok (x, _)) ?_⟩
  refine (word_congr (env' := ⟨.little, fun _ _ => 0⟩) he (w' := ⟨0, 0, 0, fun _ => 0, 0, []⟩) ⟨h1, h2⟩ 0).trans ?_
  decide +kernel

/-- The part of C32 that holds: if any other `randV`/`randM` call (here `randV8`) runs between `SetRandSeed` and
`randV64`, two different seeds (at the same time) put the generator into two different states before `randV64`
draws, and `randV64` is the function `word` of that state. Missing: without such a call the seed has no
influence, see `C32_randV64_violated`. -/
theorem C32_randV64_partial (env : Env) (X : V64) (Z : V8) (s t : BitVec 32) (hst : s ≠ t) (w : World) :
    ∃ z z' r r' v v' u u', (do SetRandSeed s; randV8 Z) w = .ok (z, v) ∧
      (do SetRandSeed t; randV8 Z) w = .ok (z', v') ∧
      randV64 env X v = .ok (r, u) ∧ randV64 env X v' = .ok (r', u') ∧
      v.m_intermediateOffset ≠ v'.m_intermediateOffset := by
  have e : ∀ s w, SetRandSeed s w = .ok ((), { w with randseed := s }) := fun _ _ => rfl
  rw [CM_bind_run (e s _), CM_bind_run (e t _)]
  refine ⟨_, _, _, _, _, _, _, _, randV8_run _ _, randV8_run _ _, randV64_run _ _ _, randV64_run _ _ _, ?_⟩
  intro h
  have h : s ^^^ w.clock w.now = t ^^^ w.clock w.now := seedOff_inj _ _ h
  have := congrArg (· ^^^ w.clock w.now) h
  exact hst (by simpa [BitVec.xor_assoc] using this)

example : exEnv.endian = .little := rfl
example : (1 : BitVec 32) ≠ 2 := by decide

end WB
