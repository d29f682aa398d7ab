import Verif.SpecSM4
import Verif.Model.SM4
import Verif.Proof.Wp

/-!
# The S-box table of `sm4.c` (helper lemmas)
-/
namespace WB.sm4

set_option maxRecDepth 10000 in
theorem sbox_table : ∀ x : BitVec 8, SboxTable[x.toNat]'x.isLt = SM4.S x := by decide +kernel

theorem sm4Sbox_eq (x : BitVec 8) : sm4Sbox x = .ok (SM4.S x) := by
  unfold sm4Sbox
  rw [rd_ok _ _ x.isLt, sbox_table]

end WB.sm4
