import Verif.Proof.M4riTransDrv

/-!
# Packing the bits of a matrix into words (helper lemmas)
-/
namespace WB.m4w

/-- The words of the matrix with the bits `f i j`. -/
def pack (r c : Nat) (f : Nat → Nat → Bool) : Mzd where
  nrows := r
  ncols := c
  off := 0
  mem := ⟨r, (c + 63) / 64, fun i w => (BitVec.ofBoolListLE (List.ofFn fun t : Fin 64 => decide (64 * w + t < c) && f i (64 * w + t))).setWidth 64⟩

theorem pack_bit (r c : Nat) (f : Nat → Nat → Bool) (i j : Nat) : (pack r c f).bit i j = (decide (j < c) && f i j) := by
  show ((BitVec.ofBoolListLE (List.ofFn fun t : Fin 64 => decide (64 * (0 + j / 64) + t < c) && f i (64 * (0 + j / 64) + t))).setWidth 64).getLsbD (j % 64) = _
  have h : j % 64 < 64 := Nat.mod_lt _ (by decide)
  rw [Nat.zero_add, BitVec.getLsbD_setWidth, decide_eq_true h, BitVec.getLsbD_ofBoolListLE, List.getD_eq_getElem?_getD, List.getElem?_ofFn, dif_pos h]
  simp only [Option.getD_some, Bool.true_and, Nat.div_add_mod]

theorem pack_rep {r c : Nat} {f : Nat → Nat → Bool} {A : Matrix (Fin r) (Fin c) (ZMod 2)} (h : ∀ (i : Fin r) (j : Fin c), bitF (f i j) = A i j) :
    Rep (pack r c f) A := by
  refine ⟨⟨Nat.le_refl _, ?_⟩, rfl, rfl, fun i j => ?_⟩
  · show 0 + (c + 63) / 64 ≤ (c + 63) / 64
    omega
  · rw [pack_bit, decide_eq_true j.2]
    exact h i j

theorem pack_clean (r c : Nat) (f : Nat → Nat → Bool) : (pack r c f).Clean := fun i _ j hj _ => by
  rw [pack_bit, decide_eq_false (show ¬ j < c from Nat.not_lt.2 hj)]
  rfl

end WB.m4w
