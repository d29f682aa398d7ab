import Verif.Proof.RandRun
import Verif.Proof.Affine
import Verif.Prop.Examples

/-!
# C31 — draws within one second are seeded differently
-/
namespace WB
open Matrix

/-- The calls of the library that use the random number generator. The parameters are the old contents
of the objects the call overwrites. -/
inductive Call
  | randM4 (old : M4)
  | randM8 (old : M8)
  | randM16 (old : M16)
  | randM32 (old : M32)
  | randM64 (old : M64)
  | randM128 (old : M128)
  | randM256 (old : M256)
  | randV4 (old : V4)
  | randV8 (old : V8)
  | randV16 (old : V16)
  | randV32 (old : V32)
  | randV64 (old : V64)
  | randV128 (old : V128)
  | randV256 (old : V256)
  | genMatpairM4 (old old_inv : M4)
  | genMatpairM8 (old old_inv : M8)
  | genMatpairM16 (old old_inv : M16)
  | genMatpairM32 (old old_inv : M32)
  | genMatpairM64 (old old_inv : M64)
  | genMatpairM128 (old old_inv : M128)
  | genMatpairM256 (old old_inv : M256)
  | genaffinepairM4 (old old_inv : Aff4)
  | genaffinepairM8 (old old_inv : Aff8)
  | genaffinepairM16 (old old_inv : Aff16)
  | genaffinepairM32 (old old_inv : Aff32)
  | genaffinepairM64 (old old_inv : Aff64)
  | genaffinepairM128 (old old_inv : Aff128)

/-- Perform a call and drop its result. -/
def Call.run (env : Env) : Call → CM Unit
  | .randM4 old => do let _ ← WB.randM4 old
  | .randM8 old => do let _ ← WB.randM8 old
  | .randM16 old => do let _ ← WB.randM16 old
  | .randM32 old => do let _ ← WB.randM32 old
  | .randM64 old => do let _ ← WB.randM64 env old
  | .randM128 old => do let _ ← WB.randM128 env old
  | .randM256 old => do let _ ← WB.randM256 env old
  | .randV4 old => do let _ ← WB.randV4 old
  | .randV8 old => do let _ ← WB.randV8 old
  | .randV16 old => do let _ ← WB.randV16 old
  | .randV32 old => do let _ ← WB.randV32 old
  | .randV64 old => do let _ ← WB.randV64 env old
  | .randV128 old => do let _ ← WB.randV128 env old
  | .randV256 old => do let _ ← WB.randV256 env old
  | .genMatpairM4 A B => do let _ ← WB.genMatpairM4 env A B
  | .genMatpairM8 A B => do let _ ← WB.genMatpairM8 env A B
  | .genMatpairM16 A B => do let _ ← WB.genMatpairM16 env A B
  | .genMatpairM32 A B => do let _ ← WB.genMatpairM32 env A B
  | .genMatpairM64 A B => do let _ ← WB.genMatpairM64 env A B
  | .genMatpairM128 A B => do let _ ← WB.genMatpairM128 env A B
  | .genMatpairM256 A B => do let _ ← WB.genMatpairM256 env A B
  | .genaffinepairM4 f g => do let _ ← WB.genaffinepairM4 env f g
  | .genaffinepairM8 f g => do let _ ← WB.genaffinepairM8 env f g
  | .genaffinepairM16 f g => do let _ ← WB.genaffinepairM16 env f g
  | .genaffinepairM32 f g => do let _ ← WB.genaffinepairM32 env f g
  | .genaffinepairM64 f g => do let _ ← WB.genaffinepairM64 env f g
  | .genaffinepairM128 f g => do let _ ← WB.genaffinepairM128 env f g

/-- How often a call seeds the generator. -/
def Call.seedings : Call → Nat
  | .randM4 _ => 1
  | .randM8 _ => 1
  | .randM16 _ => 1
  | .randM32 _ => 1
  | .randM64 _ => 1
  | .randM128 _ => 1
  | .randM256 _ => 1
  | .randV4 _ => 1
  | .randV8 _ => 1
  | .randV16 _ => 1
  | .randV32 _ => 1
  | .randV64 _ => 0
  | .randV128 _ => 1
  | .randV256 _ => 1
  | .genMatpairM4 _ _ => 2
  | .genMatpairM8 _ _ => 2
  | .genMatpairM16 _ _ => 2
  | .genMatpairM32 _ _ => 2
  | .genMatpairM64 _ _ => 2
  | .genMatpairM128 _ _ => 2
  | .genMatpairM256 _ _ => 2
  | .genaffinepairM4 _ _ => 3
  | .genaffinepairM8 _ _ => 3
  | .genaffinepairM16 _ _ => 3
  | .genaffinepairM32 _ _ => 3
  | .genaffinepairM64 _ _ => 2
  | .genaffinepairM128 _ _ => 3

/-- The calls C31 speaks about: `randM<n>`, and `randV<n>` for `n` other than 64. -/
def Call.isRand : Call → Prop
  | .randM4 _ => True
  | .randM8 _ => True
  | .randM16 _ => True
  | .randM32 _ => True
  | .randM64 _ => True
  | .randM128 _ => True
  | .randM256 _ => True
  | .randV4 _ => True
  | .randV8 _ => True
  | .randV16 _ => True
  | .randV32 _ => True
  | .randV64 _ => False
  | .randV128 _ => True
  | .randV256 _ => True
  | .genMatpairM4 _ _ => False
  | .genMatpairM8 _ _ => False
  | .genMatpairM16 _ _ => False
  | .genMatpairM32 _ _ => False
  | .genMatpairM64 _ _ => False
  | .genMatpairM128 _ _ => False
  | .genMatpairM256 _ _ => False
  | .genaffinepairM4 _ _ => False
  | .genaffinepairM8 _ _ => False
  | .genaffinepairM16 _ _ => False
  | .genaffinepairM32 _ _ => False
  | .genaffinepairM64 _ _ => False
  | .genaffinepairM128 _ _ => False

/-- Perform a sequence of calls. -/
def runCalls (env : Env) : List Call → CM Unit
  | [] => pure ()
  | c :: cs => do
    c.run env
    runCalls env cs

/-- Total number of seedings of a sequence of calls. -/
def seedings (cs : List Call) : Nat := (cs.map Call.seedings).sum

theorem Call.run_ok (env : Env) (c : Call) (w : World) : ∃ w', c.run env w = .ok ((), w') ∧
    w'.randseed = w.randseed + BitVec.ofNat 32 c.seedings ∧ w'.now = w.now + c.seedings ∧
    w'.clock = w.clock ∧ (c.isRand → w'.m_intermediateOffset = seedOff (seedOf w)) := by
  cases c with
  | randM4 old =>
    exact ⟨_, CM_bind_run (randM4_run old w), rfl, rfl, rfl, fun _ => rfl⟩
  | randM8 old =>
    exact ⟨_, CM_bind_run (randM8_run old w), rfl, rfl, rfl, fun _ => rfl⟩
  | randM16 old =>
    exact ⟨_, CM_bind_run (randM16_run old w), rfl, rfl, rfl, fun _ => rfl⟩
  | randM32 old =>
    exact ⟨_, CM_bind_run (randM32_run old w), rfl, rfl, rfl, fun _ => rfl⟩
  | randM64 old =>
    exact ⟨_, CM_bind_run (randM64_run env old w), rfl, rfl, rfl, fun _ => rfl⟩
  | randM128 old =>
    exact ⟨_, CM_bind_run (randM128_run env old w), rfl, rfl, rfl, fun _ => rfl⟩
  | randM256 old =>
    exact ⟨_, CM_bind_run (randM256_run env old w), rfl, rfl, rfl, fun _ => rfl⟩
  | randV4 old =>
    exact ⟨_, CM_bind_run (randV4_run old w), rfl, rfl, rfl, fun _ => rfl⟩
  | randV8 old =>
    exact ⟨_, CM_bind_run (randV8_run old w), rfl, rfl, rfl, fun _ => rfl⟩
  | randV16 old =>
    exact ⟨_, CM_bind_run (randV16_run old w), rfl, rfl, rfl, fun _ => rfl⟩
  | randV32 old =>
    exact ⟨_, CM_bind_run (randV32_run old w), rfl, rfl, rfl, fun _ => rfl⟩
  | randV64 old =>
    exact ⟨_, CM_bind_run (randV64_run env old w), by show w.randseed = w.randseed + 0#32; rw [BitVec.add_zero],
      rfl, rfl, fun h => h.elim⟩
  | randV128 old =>
    exact ⟨_, CM_bind_run (randV128_run env old w), rfl, rfl, rfl, fun _ => rfl⟩
  | randV256 old =>
    exact ⟨_, CM_bind_run (randV256_run env old w), rfl, rfl, rfl, fun _ => rfl⟩
  | genMatpairM4 A B =>
    obtain ⟨⟨r, w'⟩, h, h'⟩ := genMatpairM4_ok env A B w
    have hw : GenWorld w w' := by exact h'.2.2.2
    exact ⟨w', CM_bind_run h, hw.1, hw.2.1, hw.2.2.1, fun h => h.elim⟩
  | genMatpairM8 A B =>
    obtain ⟨⟨r, w'⟩, h, h'⟩ := genMatpairM8_ok env A B w
    have hw : GenWorld w w' := by exact h'.2
    exact ⟨w', CM_bind_run h, hw.1, hw.2.1, hw.2.2.1, fun h => h.elim⟩
  | genMatpairM16 A B =>
    obtain ⟨⟨r, w'⟩, h, h'⟩ := genMatpairM16_ok env A B w
    have hw : GenWorld w w' := by exact h'.2
    exact ⟨w', CM_bind_run h, hw.1, hw.2.1, hw.2.2.1, fun h => h.elim⟩
  | genMatpairM32 A B =>
    obtain ⟨⟨r, w'⟩, h, h'⟩ := genMatpairM32_ok env A B w
    have hw : GenWorld w w' := by exact h'.2
    exact ⟨w', CM_bind_run h, hw.1, hw.2.1, hw.2.2.1, fun h => h.elim⟩
  | genMatpairM64 A B =>
    obtain ⟨⟨r, w'⟩, h, h'⟩ := genMatpairM64_ok env A B w
    have hw : GenWorld w w' := by exact h'.2
    exact ⟨w', CM_bind_run h, hw.1, hw.2.1, hw.2.2.1, fun h => h.elim⟩
  | genMatpairM128 A B =>
    obtain ⟨⟨r, w'⟩, h, h'⟩ := genMatpairM128_ok env A B w
    have hw : GenWorld w w' := by exact h'.2
    exact ⟨w', CM_bind_run h, hw.1, hw.2.1, hw.2.2.1, fun h => h.elim⟩
  | genMatpairM256 A B =>
    obtain ⟨⟨r, w'⟩, h, h'⟩ := genMatpairM256_ok env A B w
    have hw : GenWorld w w' := by exact h'.2
    exact ⟨w', CM_bind_run h, hw.1, hw.2.1, hw.2.2.1, fun h => h.elim⟩
  | genaffinepairM4 f g =>
    obtain ⟨⟨r, w'⟩, h, h'⟩ := genaffinepairM4_ok env f g w
    obtain ⟨-, -, -, -, -, -, h1, h2, h3, -⟩ := h'
    exact ⟨w', CM_bind_run h, h1, h2, h3, fun h => h.elim⟩
  | genaffinepairM8 f g =>
    obtain ⟨⟨r, w'⟩, h, h'⟩ := genaffinepairM8_ok env f g w
    obtain ⟨-, -, h1, h2, h3, -⟩ := h'
    exact ⟨w', CM_bind_run h, h1, h2, h3, fun h => h.elim⟩
  | genaffinepairM16 f g =>
    obtain ⟨⟨r, w'⟩, h, h'⟩ := genaffinepairM16_ok env f g w
    obtain ⟨-, -, h1, h2, h3, -⟩ := h'
    exact ⟨w', CM_bind_run h, h1, h2, h3, fun h => h.elim⟩
  | genaffinepairM32 f g =>
    obtain ⟨⟨r, w'⟩, h, h'⟩ := genaffinepairM32_ok env f g w
    obtain ⟨-, -, h1, h2, h3, -⟩ := h'
    exact ⟨w', CM_bind_run h, h1, h2, h3, fun h => h.elim⟩
  | genaffinepairM64 f g =>
    obtain ⟨⟨r, w'⟩, h, h'⟩ := genaffinepairM64_ok env f g w
    obtain ⟨-, -, h1, h2, h3, -⟩ := h'
    exact ⟨w', CM_bind_run h, h1, h2, h3, fun h => h.elim⟩
  | genaffinepairM128 f g =>
    obtain ⟨⟨r, w'⟩, h, h'⟩ := genaffinepairM128_ok env f g w
    obtain ⟨-, -, h1, h2, h3, -⟩ := h'
    exact ⟨w', CM_bind_run h, h1, h2, h3, fun h => h.elim⟩

theorem runCalls_ok (env : Env) (cs : List Call) (w : World) : ∃ w', runCalls env cs w = .ok ((), w') ∧
    w'.randseed = w.randseed + BitVec.ofNat 32 (seedings cs) ∧ w'.now = w.now + seedings cs ∧
    w'.clock = w.clock := by
  induction cs generalizing w with
  | nil => exact ⟨w, rfl, by simp [seedings], by simp [seedings], rfl⟩
  | cons c cs ih =>
    obtain ⟨w1, h1, hr, hn, hc, -⟩ := c.run_ok env w
    obtain ⟨w2, h2, hr2, hn2, hc2⟩ := ih w1
    refine ⟨w2, ?_, ?_, ?_, hc2.trans hc⟩
    · rw [runCalls, CM_bind_run h1, h2]
    · rw [hr2, hr, BitVec.add_assoc, ← BitVec.ofNat_add]; rfl
    · rw [hn2, hn, Nat.add_assoc]; rfl

/-- C31: take any two `randM`/`randV` calls in any sequence of calls, with fewer than `2^32` seedings from
the first to the second, that read the same time from the clock. They seed the generator differently: the
generator states after the two calls have different offsets. -/
theorem C31_calls (env : Env) (c1 c2 : Call) (between : List Call) (w : World)
    (h1 : c1.isRand) (h2 : c2.isRand) (hlt : 1 + seedings between < 2 ^ 32)
    (hclock : w.clock w.now = w.clock (w.now + 1 + seedings between)) :
    ∃ w1 w2 w3, c1.run env w = .ok ((), w1) ∧ runCalls env between w1 = .ok ((), w2) ∧
      c2.run env w2 = .ok ((), w3) ∧ w1.m_intermediateOffset ≠ w3.m_intermediateOffset := by
  obtain ⟨w1, e1, hr1, hn1, hc1, ho1⟩ := c1.run_ok env w
  obtain ⟨w2, e2, hr2, hn2, hc2⟩ := runCalls_ok env between w1
  obtain ⟨w3, e3, -, -, -, ho3⟩ := c2.run_ok env w2
  refine ⟨w1, w2, w3, e1, e2, e3, ?_⟩
  have hs : c1.seedings = 1 := by cases c1 <;> first | rfl | exact h1.elim
  rw [hs] at hr1 hn1
  rw [ho1 h1, ho3 h2]
  intro h
  have h := seedOff_inj _ _ h
  unfold seedOf at h
  rw [hc2, hc1, hn2, hn1, ← hclock] at h
  have h : w.randseed = w2.randseed := by
    have := congrArg (· ^^^ w.clock w.now) h
    simpa [BitVec.xor_assoc] using this
  rw [hr2, hr1, BitVec.add_assoc, ← BitVec.ofNat_add] at h
  have h0 : BitVec.ofNat 32 (1 + seedings between) = 0#32 := by
    have := BitVec.add_right_eq_self.mp h.symm
    exact this
  have := congrArg BitVec.toNat h0
  rw [BitVec.toNat_ofNat, Nat.mod_eq_of_lt hlt] at this
  simp at this

/-- C31, special case of a clock that stands still: consecutive calls differ. -/
theorem C31_consecutive (env : Env) (c1 c2 : Call) (w : World) (h1 : c1.isRand) (h2 : c2.isRand)
    (t : BitVec 32) (hclock : ∀ k, w.clock k = t) :
    ∃ w1 w3, c1.run env w = .ok ((), w1) ∧ c2.run env w1 = .ok ((), w3) ∧
      w1.m_intermediateOffset ≠ w3.m_intermediateOffset := by
  obtain ⟨w1, w2, w3, e1, e2, e3, h⟩ := C31_calls env c1 c2 [] w h1 h2 (by simp [seedings])
    (by rw [hclock, hclock])
  cases e2
  exact ⟨w1, w3, e1, e3, h⟩

/-- The sequence `randM8; genMatpairM16; randV64; randV8` within one second. -/
example : (Call.randM8 exB8).isRand ∧ (Call.randV8 3).isRand ∧
    1 + seedings [.genMatpairM16 exA16 exB16, .randV64 7] < 2 ^ 32 ∧
    ({ exWorld with clock := fun _ => 9 } : World).clock 0 =
      ({ exWorld with clock := fun _ => 9 } : World).clock (0 + 1 + 2) :=
  ⟨trivial, trivial, by decide, rfl⟩

end WB
