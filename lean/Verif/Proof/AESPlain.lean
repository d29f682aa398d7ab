import Verif.Model.AES
import Verif.SpecAES
import Verif.Proof.WBSM4Tab

/-!
# The plain AES functions of the white-box AES demo (helper lemmas)
-/
namespace WB.aes

/-! ## Field arithmetic -/

theorem gfX_xor (p a b : BitVec 8) : gfX p (a ^^^ b) = gfX p a ^^^ gfX p b := by
  unfold gfX
  rw [BitVec.msb_xor]
  cases a.msb <;> cases b.msb <;> simp only [Bool.false_xor, Bool.true_xor, Bool.not_false, Bool.not_true, if_true,
    if_false, Bool.false_eq_true, BitVec.shiftLeft_xor_distrib, BitVec.xor_self]
  · ac_rfl
  · ac_rfl
  · rw [show a <<< 1 ^^^ p ^^^ (b <<< 1 ^^^ p) = a <<< 1 ^^^ b <<< 1 ^^^ (p ^^^ p) by ac_rfl, BitVec.xor_self,
      BitVec.xor_zero]

theorem gfX_ite (p a : BitVec 8) (c : Bool) : gfX p (if c then a else 0) = if c then gfX p a else 0 := by
  cases c
  · simp [gfX]
  · rfl

/-- One step of `gMul` in terms of `gfX`. -/
theorem gMul_step (a : BitVec 8) : (if a &&& 0x80 == 0x80 then a <<< 1 ^^^ 0x1b else a <<< 1) = gfX 0x1b a := by
  revert a; decide +kernel

theorem bit_step (b : BitVec 8) (k : Nat) : ((b >>> k) &&& 1 == 1) = b.getLsbD k := by
  have h : ∀ x : BitVec 8, (x &&& 1 == 1) = x.getLsbD 0 := by decide +kernel
  rw [h]
  simp

theorem gMul_eq (a b : BitVec 8) : gMul a b = .ok (gfMul 0x1b a b) := by
  unfold gMul
  have hs : ∀ k : Nat, b >>> k >>> 1 = b >>> (k + 1) := fun k => by rw [BitVec.shiftRight_add]
  have h0 : (b &&& 1 == 1) = b.getLsbD 0 := by simpa using bit_step b 0
  simp only [forUp, List.range'_succ, List.range'_zero, List.foldlM_cons, List.foldlM_nil, C_pure_bind, gMul_step,
    C_pure_eq, Nat.sub_zero]
  rw [show b >>> 1 >>> 1 = b >>> 2 from hs 1, show b >>> 2 >>> 1 = b >>> 3 from hs 2,
    show b >>> 3 >>> 1 = b >>> 4 from hs 3, show b >>> 4 >>> 1 = b >>> 5 from hs 4,
    show b >>> 5 >>> 1 = b >>> 6 from hs 5, show b >>> 6 >>> 1 = b >>> 7 from hs 6]
  congr 1
  simp only [bit_step, h0]
  unfold gfMul
  simp only [List.foldl_cons, List.foldl_nil, gfX_xor, gfX_ite]
  have z : gfX 0x1b (0 : BitVec 8) = 0 := by decide
  simp only [z, BitVec.zero_xor]
  have hx : ∀ (c : Bool) (p x : BitVec 8), (if c then p ^^^ x else p) = p ^^^ (if c then x else 0) := by
    intro c p x; cases c
    · simp
    · rfl
  simp only [hx, BitVec.zero_xor]
  ac_rfl

/-! ## The S-box -/

theorem sbox_table : ∀ x : BitVec 8, SBox[x.toNat]'x.isLt = AES.S x := by decide +kernel

theorem rd_SBox (x : BitVec 8) : rd SBox x.toNat = .ok (AES.S x) := by
  rw [rd_ok _ _ x.isLt, sbox_table]

end WB.aes
