import Verif.Proof.RelAll
import Verif.Prop.Examples

/-!
# C30 — consecutive random draws in different seconds (violated)
-/
namespace WB
open Matrix

theorem even_succ_xor (r t : BitVec 32) (hr : r.toNat % 2 = 0) (ht : t.toNat % 2 = 0) :
    (r + 1#32) ^^^ (t + 1#32) = r ^^^ t := by
  have h1 : ∀ x : BitVec 32, x.toNat % 2 = 0 → x + 1#32 = x ^^^ 1#32 := by
    intro x hx
    have h2 : x &&& 1#32 = 0#32 := by
      apply BitVec.eq_of_toNat_eq
      rw [BitVec.toNat_and]
      show x.toNat &&& 1 = 0
      rw [Nat.and_one_is_mod, hx]
    rw [BitVec.add_eq_or_of_and_eq_zero _ _ h2]
    apply BitVec.eq_of_toNat_eq
    rw [BitVec.toNat_or, BitVec.toNat_xor]
    apply Nat.eq_of_testBit_eq
    intro i
    rw [Nat.testBit_or, Nat.testBit_xor]
    have h3 : (x.toNat &&& 1).testBit i = false := by
      rw [Nat.and_one_is_mod, hx]; exact Nat.zero_testBit i
    rw [Nat.testBit_and] at h3
    show (x.toNat.testBit i || Nat.testBit 1 i) = (x.toNat.testBit i ^^ Nat.testBit 1 i)
    revert h3
    cases x.toNat.testBit i <;> cases Nat.testBit 1 i <;> simp
  rw [h1 r hr, h1 t ht, BitVec.xor_assoc, BitVec.xor_comm t, ← BitVec.xor_assoc 1#32,
    BitVec.xor_self, BitVec.zero_xor]

/-- C30 is false for `randM4`: two consecutive calls, the first in an even second with an even
counter and the second one second later, return the very same matrix. -/
theorem C30_randM4_violated (X Y : M4) (w : World) (hr : w.randseed.toNat % 2 = 0)
    (ht : (w.clock w.now).toNat % 2 = 0) (hs : w.clock (w.now + 1) = w.clock w.now + 1#32) :
    ∃ r w1 w2, randM4 X w = .ok (r, w1) ∧ randM4 Y w1 = .ok (r, w2) := by
  have h1 := randM4_run X w
  obtain ⟨r, v, v', e1, e2, -⟩ := randM4_rel X Y (w := w) (w' := w.seeded.adv 4)
    (show w.randseed ^^^ w.clock w.now = (w.randseed + 1#32) ^^^ w.clock (w.now + 1) by
      rw [hs, even_succ_xor _ _ hr ht])
  exact ⟨r, _, v', e1.trans (by rw [(Prod.mk.inj (Except.ok.inj (h1.symm.trans e1))).2]), e2⟩

/-- The part of C30 that holds: two consecutive `randM4` calls whose clock readings are equal (or,
more generally, for which counter xor clock differs) leave the generator in different states. Missing for
the full claim: it is false without the hypothesis on the clock, see `C30_randM4_violated`. -/
theorem C30_randM4_partial (X Y : M4) (w : World)
    (ht : (w.randseed + 1#32) ^^^ w.clock (w.now + 1) ≠ w.randseed ^^^ w.clock w.now) :
    ∃ r s w1 w2, randM4 X w = .ok (r, w1) ∧ randM4 Y w1 = .ok (s, w2) ∧
      w1.m_intermediateOffset ≠ w2.m_intermediateOffset := by
  refine ⟨_, _, _, _, randM4_run X w, randM4_run Y _, fun h => ht ?_⟩
  have h' : seedOff (seedOf w) = seedOff (seedOf (w.seeded.adv 4)) := h
  exact (seedOff_inj _ _ h').symm

/-- C30 is false for `randV4`: two consecutive calls, the first in an even second with an even
counter and the second one second later, return the very same vector. -/
theorem C30_randV4_violated (X Y : V4) (w : World) (hr : w.randseed.toNat % 2 = 0)
    (ht : (w.clock w.now).toNat % 2 = 0) (hs : w.clock (w.now + 1) = w.clock w.now + 1#32) :
    ∃ r w1 w2, randV4 X w = .ok (r, w1) ∧ randV4 Y w1 = .ok (r, w2) := by
  have h1 := randV4_run X w
  obtain ⟨r, v, v', e1, e2, -⟩ := randV4_rel X Y (w := w) (w' := w.seeded.adv 1)
    (show w.randseed ^^^ w.clock w.now = (w.randseed + 1#32) ^^^ w.clock (w.now + 1) by
      rw [hs, even_succ_xor _ _ hr ht])
  exact ⟨r, _, v', e1.trans (by rw [(Prod.mk.inj (Except.ok.inj (h1.symm.trans e1))).2]), e2⟩

/-- The part of C30 that holds: two consecutive `randV4` calls whose clock readings are equal (or,
more generally, for which counter xor clock differs) leave the generator in different states. Missing for
the full claim: it is false without the hypothesis on the clock, see `C30_randV4_violated`. -/
theorem C30_randV4_partial (X Y : V4) (w : World)
    (ht : (w.randseed + 1#32) ^^^ w.clock (w.now + 1) ≠ w.randseed ^^^ w.clock w.now) :
    ∃ r s w1 w2, randV4 X w = .ok (r, w1) ∧ randV4 Y w1 = .ok (s, w2) ∧
      w1.m_intermediateOffset ≠ w2.m_intermediateOffset := by
  refine ⟨_, _, _, _, randV4_run X w, randV4_run Y _, fun h => ht ?_⟩
  have h' : seedOff (seedOf w) = seedOff (seedOf (w.seeded.adv 1)) := h
  exact (seedOff_inj _ _ h').symm

/-- C30 is false for `randM8`: two consecutive calls, the first in an even second with an even
counter and the second one second later, return the very same matrix. -/
theorem C30_randM8_violated (X Y : M8) (w : World) (hr : w.randseed.toNat % 2 = 0)
    (ht : (w.clock w.now).toNat % 2 = 0) (hs : w.clock (w.now + 1) = w.clock w.now + 1#32) :
    ∃ r w1 w2, randM8 X w = .ok (r, w1) ∧ randM8 Y w1 = .ok (r, w2) := by
  have h1 := randM8_run X w
  obtain ⟨r, v, v', e1, e2, -⟩ := randM8_rel X Y (w := w) (w' := w.seeded.adv 8)
    (show w.randseed ^^^ w.clock w.now = (w.randseed + 1#32) ^^^ w.clock (w.now + 1) by
      rw [hs, even_succ_xor _ _ hr ht])
  exact ⟨r, _, v', e1.trans (by rw [(Prod.mk.inj (Except.ok.inj (h1.symm.trans e1))).2]), e2⟩

/-- The part of C30 that holds: two consecutive `randM8` calls whose clock readings are equal (or,
more generally, for which counter xor clock differs) leave the generator in different states. Missing for
the full claim: it is false without the hypothesis on the clock, see `C30_randM8_violated`. -/
theorem C30_randM8_partial (X Y : M8) (w : World)
    (ht : (w.randseed + 1#32) ^^^ w.clock (w.now + 1) ≠ w.randseed ^^^ w.clock w.now) :
    ∃ r s w1 w2, randM8 X w = .ok (r, w1) ∧ randM8 Y w1 = .ok (s, w2) ∧
      w1.m_intermediateOffset ≠ w2.m_intermediateOffset := by
  refine ⟨_, _, _, _, randM8_run X w, randM8_run Y _, fun h => ht ?_⟩
  have h' : seedOff (seedOf w) = seedOff (seedOf (w.seeded.adv 8)) := h
  exact (seedOff_inj _ _ h').symm

/-- C30 is false for `randV8`: two consecutive calls, the first in an even second with an even
counter and the second one second later, return the very same vector. -/
theorem C30_randV8_violated (X Y : V8) (w : World) (hr : w.randseed.toNat % 2 = 0)
    (ht : (w.clock w.now).toNat % 2 = 0) (hs : w.clock (w.now + 1) = w.clock w.now + 1#32) :
    ∃ r w1 w2, randV8 X w = .ok (r, w1) ∧ randV8 Y w1 = .ok (r, w2) := by
  have h1 := randV8_run X w
  obtain ⟨r, v, v', e1, e2, -⟩ := randV8_rel X Y (w := w) (w' := w.seeded.adv 1)
    (show w.randseed ^^^ w.clock w.now = (w.randseed + 1#32) ^^^ w.clock (w.now + 1) by
      rw [hs, even_succ_xor _ _ hr ht])
  exact ⟨r, _, v', e1.trans (by rw [(Prod.mk.inj (Except.ok.inj (h1.symm.trans e1))).2]), e2⟩

/-- The part of C30 that holds: two consecutive `randV8` calls whose clock readings are equal (or,
more generally, for which counter xor clock differs) leave the generator in different states. Missing for
the full claim: it is false without the hypothesis on the clock, see `C30_randV8_violated`. -/
theorem C30_randV8_partial (X Y : V8) (w : World)
    (ht : (w.randseed + 1#32) ^^^ w.clock (w.now + 1) ≠ w.randseed ^^^ w.clock w.now) :
    ∃ r s w1 w2, randV8 X w = .ok (r, w1) ∧ randV8 Y w1 = .ok (s, w2) ∧
      w1.m_intermediateOffset ≠ w2.m_intermediateOffset := by
  refine ⟨_, _, _, _, randV8_run X w, randV8_run Y _, fun h => ht ?_⟩
  have h' : seedOff (seedOf w) = seedOff (seedOf (w.seeded.adv 1)) := h
  exact (seedOff_inj _ _ h').symm

/-- C30 is false for `randM16`: two consecutive calls, the first in an even second with an even
counter and the second one second later, return the very same matrix. -/
theorem C30_randM16_violated (X Y : M16) (w : World) (hr : w.randseed.toNat % 2 = 0)
    (ht : (w.clock w.now).toNat % 2 = 0) (hs : w.clock (w.now + 1) = w.clock w.now + 1#32) :
    ∃ r w1 w2, randM16 X w = .ok (r, w1) ∧ randM16 Y w1 = .ok (r, w2) := by
  have h1 := randM16_run X w
  obtain ⟨r, v, v', e1, e2, -⟩ := randM16_rel X Y (w := w) (w' := w.seeded.adv 16)
    (show w.randseed ^^^ w.clock w.now = (w.randseed + 1#32) ^^^ w.clock (w.now + 1) by
      rw [hs, even_succ_xor _ _ hr ht])
  exact ⟨r, _, v', e1.trans (by rw [(Prod.mk.inj (Except.ok.inj (h1.symm.trans e1))).2]), e2⟩

/-- The part of C30 that holds: two consecutive `randM16` calls whose clock readings are equal (or,
more generally, for which counter xor clock differs) leave the generator in different states. Missing for
the full claim: it is false without the hypothesis on the clock, see `C30_randM16_violated`. -/
theorem C30_randM16_partial (X Y : M16) (w : World)
    (ht : (w.randseed + 1#32) ^^^ w.clock (w.now + 1) ≠ w.randseed ^^^ w.clock w.now) :
    ∃ r s w1 w2, randM16 X w = .ok (r, w1) ∧ randM16 Y w1 = .ok (s, w2) ∧
      w1.m_intermediateOffset ≠ w2.m_intermediateOffset := by
  refine ⟨_, _, _, _, randM16_run X w, randM16_run Y _, fun h => ht ?_⟩
  have h' : seedOff (seedOf w) = seedOff (seedOf (w.seeded.adv 16)) := h
  exact (seedOff_inj _ _ h').symm

/-- C30 is false for `randV16`: two consecutive calls, the first in an even second with an even
counter and the second one second later, return the very same vector. -/
theorem C30_randV16_violated (X Y : V16) (w : World) (hr : w.randseed.toNat % 2 = 0)
    (ht : (w.clock w.now).toNat % 2 = 0) (hs : w.clock (w.now + 1) = w.clock w.now + 1#32) :
    ∃ r w1 w2, randV16 X w = .ok (r, w1) ∧ randV16 Y w1 = .ok (r, w2) := by
  have h1 := randV16_run X w
  obtain ⟨r, v, v', e1, e2, -⟩ := randV16_rel X Y (w := w) (w' := w.seeded.adv 1)
    (show w.randseed ^^^ w.clock w.now = (w.randseed + 1#32) ^^^ w.clock (w.now + 1) by
      rw [hs, even_succ_xor _ _ hr ht])
  exact ⟨r, _, v', e1.trans (by rw [(Prod.mk.inj (Except.ok.inj (h1.symm.trans e1))).2]), e2⟩

/-- The part of C30 that holds: two consecutive `randV16` calls whose clock readings are equal (or,
more generally, for which counter xor clock differs) leave the generator in different states. Missing for
the full claim: it is false without the hypothesis on the clock, see `C30_randV16_violated`. -/
theorem C30_randV16_partial (X Y : V16) (w : World)
    (ht : (w.randseed + 1#32) ^^^ w.clock (w.now + 1) ≠ w.randseed ^^^ w.clock w.now) :
    ∃ r s w1 w2, randV16 X w = .ok (r, w1) ∧ randV16 Y w1 = .ok (s, w2) ∧
      w1.m_intermediateOffset ≠ w2.m_intermediateOffset := by
  refine ⟨_, _, _, _, randV16_run X w, randV16_run Y _, fun h => ht ?_⟩
  have h' : seedOff (seedOf w) = seedOff (seedOf (w.seeded.adv 1)) := h
  exact (seedOff_inj _ _ h').symm

/-- C30 is false for `randM32`: two consecutive calls, the first in an even second with an even
counter and the second one second later, return the very same matrix. -/
theorem C30_randM32_violated (X Y : M32) (w : World) (hr : w.randseed.toNat % 2 = 0)
    (ht : (w.clock w.now).toNat % 2 = 0) (hs : w.clock (w.now + 1) = w.clock w.now + 1#32) :
    ∃ r w1 w2, randM32 X w = .ok (r, w1) ∧ randM32 Y w1 = .ok (r, w2) := by
  have h1 := randM32_run X w
  obtain ⟨r, v, v', e1, e2, -⟩ := randM32_rel X Y (w := w) (w' := w.seeded.adv 32)
    (show w.randseed ^^^ w.clock w.now = (w.randseed + 1#32) ^^^ w.clock (w.now + 1) by
      rw [hs, even_succ_xor _ _ hr ht])
  exact ⟨r, _, v', e1.trans (by rw [(Prod.mk.inj (Except.ok.inj (h1.symm.trans e1))).2]), e2⟩

/-- The part of C30 that holds: two consecutive `randM32` calls whose clock readings are equal (or,
more generally, for which counter xor clock differs) leave the generator in different states. Missing for
the full claim: it is false without the hypothesis on the clock, see `C30_randM32_violated`. -/
theorem C30_randM32_partial (X Y : M32) (w : World)
    (ht : (w.randseed + 1#32) ^^^ w.clock (w.now + 1) ≠ w.randseed ^^^ w.clock w.now) :
    ∃ r s w1 w2, randM32 X w = .ok (r, w1) ∧ randM32 Y w1 = .ok (s, w2) ∧
      w1.m_intermediateOffset ≠ w2.m_intermediateOffset := by
  refine ⟨_, _, _, _, randM32_run X w, randM32_run Y _, fun h => ht ?_⟩
  have h' : seedOff (seedOf w) = seedOff (seedOf (w.seeded.adv 32)) := h
  exact (seedOff_inj _ _ h').symm

/-- C30 is false for `randV32`: two consecutive calls, the first in an even second with an even
counter and the second one second later, return the very same vector. -/
theorem C30_randV32_violated (X Y : V32) (w : World) (hr : w.randseed.toNat % 2 = 0)
    (ht : (w.clock w.now).toNat % 2 = 0) (hs : w.clock (w.now + 1) = w.clock w.now + 1#32) :
    ∃ r w1 w2, randV32 X w = .ok (r, w1) ∧ randV32 Y w1 = .ok (r, w2) := by
  have h1 := randV32_run X w
  obtain ⟨r, v, v', e1, e2, -⟩ := randV32_rel X Y (w := w) (w' := w.seeded.adv 1)
    (show w.randseed ^^^ w.clock w.now = (w.randseed + 1#32) ^^^ w.clock (w.now + 1) by
      rw [hs, even_succ_xor _ _ hr ht])
  exact ⟨r, _, v', e1.trans (by rw [(Prod.mk.inj (Except.ok.inj (h1.symm.trans e1))).2]), e2⟩

/-- The part of C30 that holds: two consecutive `randV32` calls whose clock readings are equal (or,
more generally, for which counter xor clock differs) leave the generator in different states. Missing for
the full claim: it is false without the hypothesis on the clock, see `C30_randV32_violated`. -/
theorem C30_randV32_partial (X Y : V32) (w : World)
    (ht : (w.randseed + 1#32) ^^^ w.clock (w.now + 1) ≠ w.randseed ^^^ w.clock w.now) :
    ∃ r s w1 w2, randV32 X w = .ok (r, w1) ∧ randV32 Y w1 = .ok (s, w2) ∧
      w1.m_intermediateOffset ≠ w2.m_intermediateOffset := by
  refine ⟨_, _, _, _, randV32_run X w, randV32_run Y _, fun h => ht ?_⟩
  have h' : seedOff (seedOf w) = seedOff (seedOf (w.seeded.adv 1)) := h
  exact (seedOff_inj _ _ h').symm

/-- C30 is false for `randM64`: two consecutive calls, the first in an even second with an even
counter and the second one second later, return the very same matrix. -/
theorem C30_randM64_violated (env : Env) (X Y : M64) (w : World) (hr : w.randseed.toNat % 2 = 0)
    (ht : (w.clock w.now).toNat % 2 = 0) (hs : w.clock (w.now + 1) = w.clock w.now + 1#32) :
    ∃ r w1 w2, randM64 env X w = .ok (r, w1) ∧ randM64 env Y w1 = .ok (r, w2) := by
  have h1 := randM64_run env X w
  obtain ⟨r, v, v', e1, e2, -⟩ := randM64_rel (rfl : env.endian = env.endian) X Y (w := w) (w' := w.seeded.adv 128)
    (show w.randseed ^^^ w.clock w.now = (w.randseed + 1#32) ^^^ w.clock (w.now + 1) by
      rw [hs, even_succ_xor _ _ hr ht])
  exact ⟨r, _, v', e1.trans (by rw [(Prod.mk.inj (Except.ok.inj (h1.symm.trans e1))).2]), e2⟩

/-- The part of C30 that holds: two consecutive `randM64` calls whose clock readings are equal (or,
more generally, for which counter xor clock differs) leave the generator in different states. Missing for
the full claim: it is false without the hypothesis on the clock, see `C30_randM64_violated`. -/
theorem C30_randM64_partial (env : Env) (X Y : M64) (w : World)
    (ht : (w.randseed + 1#32) ^^^ w.clock (w.now + 1) ≠ w.randseed ^^^ w.clock w.now) :
    ∃ r s w1 w2, randM64 env X w = .ok (r, w1) ∧ randM64 env Y w1 = .ok (s, w2) ∧
      w1.m_intermediateOffset ≠ w2.m_intermediateOffset := by
  refine ⟨_, _, _, _, randM64_run env X w, randM64_run env Y _, fun h => ht ?_⟩
  have h' : seedOff (seedOf w) = seedOff (seedOf (w.seeded.adv 128)) := h
  exact (seedOff_inj _ _ h').symm

/-- C30 is false for `randM128`: two consecutive calls, the first in an even second with an even
counter and the second one second later, return the very same matrix. -/
theorem C30_randM128_violated (env : Env) (X Y : M128) (w : World) (hr : w.randseed.toNat % 2 = 0)
    (ht : (w.clock w.now).toNat % 2 = 0) (hs : w.clock (w.now + 1) = w.clock w.now + 1#32) :
    ∃ r w1 w2, randM128 env X w = .ok (r, w1) ∧ randM128 env Y w1 = .ok (r, w2) := by
  have h1 := randM128_run env X w
  obtain ⟨r, v, v', e1, e2, -⟩ := randM128_rel (rfl : env.endian = env.endian) X Y (w := w) (w' := w.seeded.adv 512)
    (show w.randseed ^^^ w.clock w.now = (w.randseed + 1#32) ^^^ w.clock (w.now + 1) by
      rw [hs, even_succ_xor _ _ hr ht])
  exact ⟨r, _, v', e1.trans (by rw [(Prod.mk.inj (Except.ok.inj (h1.symm.trans e1))).2]), e2⟩

/-- The part of C30 that holds: two consecutive `randM128` calls whose clock readings are equal (or,
more generally, for which counter xor clock differs) leave the generator in different states. Missing for
the full claim: it is false without the hypothesis on the clock, see `C30_randM128_violated`. -/
theorem C30_randM128_partial (env : Env) (X Y : M128) (w : World)
    (ht : (w.randseed + 1#32) ^^^ w.clock (w.now + 1) ≠ w.randseed ^^^ w.clock w.now) :
    ∃ r s w1 w2, randM128 env X w = .ok (r, w1) ∧ randM128 env Y w1 = .ok (s, w2) ∧
      w1.m_intermediateOffset ≠ w2.m_intermediateOffset := by
  refine ⟨_, _, _, _, randM128_run env X w, randM128_run env Y _, fun h => ht ?_⟩
  have h' : seedOff (seedOf w) = seedOff (seedOf (w.seeded.adv 512)) := h
  exact (seedOff_inj _ _ h').symm

/-- C30 is false for `randV128`: two consecutive calls, the first in an even second with an even
counter and the second one second later, return the very same vector. -/
theorem C30_randV128_violated (env : Env) (X Y : V128) (w : World) (hr : w.randseed.toNat % 2 = 0)
    (ht : (w.clock w.now).toNat % 2 = 0) (hs : w.clock (w.now + 1) = w.clock w.now + 1#32) :
    ∃ r w1 w2, randV128 env X w = .ok (r, w1) ∧ randV128 env Y w1 = .ok (r, w2) := by
  have h1 := randV128_run env X w
  obtain ⟨r, v, v', e1, e2, -⟩ := randV128_rel (rfl : env.endian = env.endian) X Y (w := w) (w' := w.seeded.adv 4)
    (show w.randseed ^^^ w.clock w.now = (w.randseed + 1#32) ^^^ w.clock (w.now + 1) by
      rw [hs, even_succ_xor _ _ hr ht])
  exact ⟨r, _, v', e1.trans (by rw [(Prod.mk.inj (Except.ok.inj (h1.symm.trans e1))).2]), e2⟩

/-- The part of C30 that holds: two consecutive `randV128` calls whose clock readings are equal (or,
more generally, for which counter xor clock differs) leave the generator in different states. Missing for
the full claim: it is false without the hypothesis on the clock, see `C30_randV128_violated`. -/
theorem C30_randV128_partial (env : Env) (X Y : V128) (w : World)
    (ht : (w.randseed + 1#32) ^^^ w.clock (w.now + 1) ≠ w.randseed ^^^ w.clock w.now) :
    ∃ r s w1 w2, randV128 env X w = .ok (r, w1) ∧ randV128 env Y w1 = .ok (s, w2) ∧
      w1.m_intermediateOffset ≠ w2.m_intermediateOffset := by
  refine ⟨_, _, _, _, randV128_run env X w, randV128_run env Y _, fun h => ht ?_⟩
  have h' : seedOff (seedOf w) = seedOff (seedOf (w.seeded.adv 4)) := h
  exact (seedOff_inj _ _ h').symm

/-- C30 is false for `randM256`: two consecutive calls, the first in an even second with an even
counter and the second one second later, return the very same matrix. -/
theorem C30_randM256_violated (env : Env) (X Y : M256) (w : World) (hr : w.randseed.toNat % 2 = 0)
    (ht : (w.clock w.now).toNat % 2 = 0) (hs : w.clock (w.now + 1) = w.clock w.now + 1#32) :
    ∃ r w1 w2, randM256 env X w = .ok (r, w1) ∧ randM256 env Y w1 = .ok (r, w2) := by
  have h1 := randM256_run env X w
  obtain ⟨r, v, v', e1, e2, -⟩ := randM256_rel (rfl : env.endian = env.endian) X Y (w := w) (w' := w.seeded.adv 2048)
    (show w.randseed ^^^ w.clock w.now = (w.randseed + 1#32) ^^^ w.clock (w.now + 1) by
      rw [hs, even_succ_xor _ _ hr ht])
  exact ⟨r, _, v', e1.trans (by rw [(Prod.mk.inj (Except.ok.inj (h1.symm.trans e1))).2]), e2⟩

/-- The part of C30 that holds: two consecutive `randM256` calls whose clock readings are equal (or,
more generally, for which counter xor clock differs) leave the generator in different states. Missing for
the full claim: it is false without the hypothesis on the clock, see `C30_randM256_violated`. -/
theorem C30_randM256_partial (env : Env) (X Y : M256) (w : World)
    (ht : (w.randseed + 1#32) ^^^ w.clock (w.now + 1) ≠ w.randseed ^^^ w.clock w.now) :
    ∃ r s w1 w2, randM256 env X w = .ok (r, w1) ∧ randM256 env Y w1 = .ok (s, w2) ∧
      w1.m_intermediateOffset ≠ w2.m_intermediateOffset := by
  refine ⟨_, _, _, _, randM256_run env X w, randM256_run env Y _, fun h => ht ?_⟩
  have h' : seedOff (seedOf w) = seedOff (seedOf (w.seeded.adv 2048)) := h
  exact (seedOff_inj _ _ h').symm

/-- C30 is false for `randV256`: two consecutive calls, the first in an even second with an even
counter and the second one second later, return the very same vector. -/
theorem C30_randV256_violated (env : Env) (X Y : V256) (w : World) (hr : w.randseed.toNat % 2 = 0)
    (ht : (w.clock w.now).toNat % 2 = 0) (hs : w.clock (w.now + 1) = w.clock w.now + 1#32) :
    ∃ r w1 w2, randV256 env X w = .ok (r, w1) ∧ randV256 env Y w1 = .ok (r, w2) := by
  have h1 := randV256_run env X w
  obtain ⟨r, v, v', e1, e2, -⟩ := randV256_rel (rfl : env.endian = env.endian) X Y (w := w) (w' := w.seeded.adv 8)
    (show w.randseed ^^^ w.clock w.now = (w.randseed + 1#32) ^^^ w.clock (w.now + 1) by
      rw [hs, even_succ_xor _ _ hr ht])
  exact ⟨r, _, v', e1.trans (by rw [(Prod.mk.inj (Except.ok.inj (h1.symm.trans e1))).2]), e2⟩

/-- The part of C30 that holds: two consecutive `randV256` calls whose clock readings are equal (or,
more generally, for which counter xor clock differs) leave the generator in different states. Missing for
the full claim: it is false without the hypothesis on the clock, see `C30_randV256_violated`. -/
theorem C30_randV256_partial (env : Env) (X Y : V256) (w : World)
    (ht : (w.randseed + 1#32) ^^^ w.clock (w.now + 1) ≠ w.randseed ^^^ w.clock w.now) :
    ∃ r s w1 w2, randV256 env X w = .ok (r, w1) ∧ randV256 env Y w1 = .ok (s, w2) ∧
      w1.m_intermediateOffset ≠ w2.m_intermediateOffset := by
  refine ⟨_, _, _, _, randV256_run env X w, randV256_run env Y _, fun h => ht ?_⟩
  have h' : seedOff (seedOf w) = seedOff (seedOf (w.seeded.adv 8)) := h
  exact (seedOff_inj _ _ h').symm

/-- The exact condition for two consecutive seedings to collide, and that equal clock readings are
never such a case. -/
theorem C30_collision (r t t' : BitVec 32) :
    ((r + 1#32) ^^^ t' = r ^^^ t ↔ r ^^^ (r + 1#32) = t ^^^ t') ∧ (r + 1#32) ^^^ t ≠ r ^^^ t := by
  have key : ∀ a b c d : BitVec 32, a ^^^ b = c ^^^ d ↔ c ^^^ a = d ^^^ b := by
    intro a b c d
    constructor
    · intro h
      have e : c ^^^ a = c ^^^ (a ^^^ b) ^^^ b := by rw [← BitVec.xor_assoc, BitVec.xor_assoc, BitVec.xor_self, BitVec.xor_zero]
      rw [e, h, ← BitVec.xor_assoc, BitVec.xor_self, BitVec.zero_xor]
    · intro h
      have e : a ^^^ b = c ^^^ (c ^^^ a) ^^^ b := by rw [← BitVec.xor_assoc, BitVec.xor_self, BitVec.zero_xor]
      rw [e, h, BitVec.xor_assoc, BitVec.xor_assoc, BitVec.xor_self, BitVec.xor_zero]
  refine ⟨key _ _ _ _, fun h => ?_⟩
  rw [key, BitVec.xor_self, BitVec.xor_eq_zero_iff] at h
  have := congrArg BitVec.toNat h
  rw [BitVec.toNat_add] at this
  have := r.isLt
  simp at *

/-- Counter 0 (a fresh process), time stamp 1700000000, the clock moves by one second between the
two calls. -/
def exWorldTick : World := ⟨0, 0, 0, fun k => BitVec.ofNat 32 (1700000000 + k), 0, []⟩

example : exWorldTick.randseed.toNat % 2 = 0 ∧ (exWorldTick.clock exWorldTick.now).toNat % 2 = 0 ∧
    exWorldTick.clock (exWorldTick.now + 1) = exWorldTick.clock exWorldTick.now + 1#32 := by
  decide +kernel
example : (exWorld.randseed + 1#32) ^^^ exWorld.clock (exWorld.now + 1) ≠
    exWorld.randseed ^^^ exWorld.clock exWorld.now := by decide +kernel

end WB
