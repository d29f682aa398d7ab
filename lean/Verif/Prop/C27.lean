import Verif.Proof.Random
import Verif.Prop.Examples

/-!
# C27 — seeding is injective
-/
namespace WB

/-- C27: two different seeds put the generator into states with a different index and a different
offset; nothing else is touched. -/
theorem C27_InitRandom (s t : BitVec 32) (hst : s ≠ t) (w w' : World) :
    ∃ w1 w1', InitRandom s w = .ok ((), w1) ∧ InitRandom t w' = .ok ((), w1') ∧
      w1.m_index ≠ w1'.m_index ∧ w1.m_intermediateOffset ≠ w1'.m_intermediateOffset ∧
      w1.randseed = w.randseed ∧ w1.now = w.now ∧ w1.clock = w.clock ∧ w1.out = w.out := by
  refine ⟨_, _, InitRandom_run s w, InitRandom_run t w', fun h => hst ?_, fun h => hst ?_, rfl, rfl,
    rfl, rfl⟩
  · exact seedIdx_inj s t h
  · exact seedOff_inj s t h

/-- C27: the index alone (and likewise the offset alone) runs through all 32-bit values. -/
theorem C27_InitRandom_onto (w : World) (v : BitVec 32) :
    (∃ s w1, InitRandom s w = .ok ((), w1) ∧ w1.m_index = v) ∧
    (∃ s w1, InitRandom s w = .ok ((), w1) ∧ w1.m_intermediateOffset = v) := by
  constructor
  · obtain ⟨x, hx⟩ := bv_surj seedIdx_inj v
    exact ⟨x, _, InitRandom_run x w, hx⟩
  · obtain ⟨x, hx⟩ := bv_surj seedOff_inj v
    exact ⟨x, _, InitRandom_run x w, hx⟩

example : (0 : BitVec 32) ≠ 1 := by decide
example : ((InitRandom 0 exWorld).toOption.map fun r => r.2.m_index) = some 631179142 ∧
    ((InitRandom 1 exWorld).toOption.map fun r => r.2.m_index) = some 4127001161 := by
  decide +kernel

end WB
