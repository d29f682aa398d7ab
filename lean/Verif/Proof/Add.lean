import Verif.Proof.Inj

/-!
# Addition (helper lemmas); written by `tools/gen_props1.py`
-/
namespace WB
open Matrix

theorem clean4_xor {x y : BitVec 8} (hx : Clean4 x) (hy : Clean4 y) : Clean4 (x ^^^ y) :=
  clean4_of_bits fun p hp => by
    rw [BitVec.getLsbD_xor, hx.bits4 p hp, hy.bits4 p hp]; rfl

theorem z2mat_add_self {n : Nat} (M : Mat n) : M + M = 0 := by
  ext i j
  have : ∀ a : ZMod 2, a + a = 0 := by decide
  exact this _

theorem VecAddVecV128_ok (x y z0 : V128) : Ok (VecAddVecV128 x y z0) (fun z =>
    ∀ k (hk : k < 2), z[k] = x[k] ^^^ y[k]) := by
  unfold VecAddVecV128
  rw [rd_ok _ _ (by omega : 0 < 2), rd_ok _ _ (by omega : 0 < 2), rd_ok _ _ (by omega : 1 < 2),
    rd_ok _ _ (by omega : 1 < 2)]
  simp only [C_pure_bind]
  rw [wr_ok _ _ _ (by omega), C_pure_bind, wr_ok _ _ _ (by omega), Ok.ok_iff]
  intro k hk
  obtain rfl | rfl : k = 0 ∨ k = 1 := by omega
  all_goals simp

theorem VecAddVecV256_ok (x y z0 : V256) : Ok (VecAddVecV256 x y z0) (fun z =>
    ∀ k (hk : k < 4), z[k] = x[k] ^^^ y[k]) := by
  unfold VecAddVecV256
  rw [rd_ok _ _ (by omega : 0 < 4), rd_ok _ _ (by omega : 0 < 4), rd_ok _ _ (by omega : 1 < 4),
    rd_ok _ _ (by omega : 1 < 4), rd_ok _ _ (by omega : 2 < 4), rd_ok _ _ (by omega : 2 < 4),
    rd_ok _ _ (by omega : 3 < 4), rd_ok _ _ (by omega : 3 < 4)]
  simp only [C_pure_bind]
  rw [wr_ok _ _ _ (by omega), C_pure_bind, wr_ok _ _ _ (by omega), C_pure_bind,
    wr_ok _ _ _ (by omega), C_pure_bind, wr_ok _ _ _ (by omega), Ok.ok_iff]
  intro k hk
  obtain rfl | rfl | rfl | rfl : k = 0 ∨ k = 1 ∨ k = 2 ∨ k = 3 := by omega
  all_goals simp

end WB
