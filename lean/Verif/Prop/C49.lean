import Verif.Proof.AESRound
import Verif.Prop.Examples

/-!
# C49 — the plain AES functions of the white-box AES demo
-/
namespace WB
open AES

/-- C49: `expandKey` writes the 11 round keys of the standard one after another, for every key and prior contents. -/
theorem C49_expandKey (key : State) (ek0 : Vector (BitVec 8) 176) :
    ∃ ek, aes.expandKey key ek0 = .ok ek ∧
      ∀ r, r < 11 → ∀ b, b < 16 → ek[16 * r + b]! = (roundKey key r)[b]! := by
  obtain ⟨ek, h, hk⟩ := aes.expandKey_keyOk key ek0
  refine ⟨ek, h, ?_⟩
  intro r hr b hb
  rw [← hk r hr, aes.blk_get _ _ hb]

/-- C49: the four transformations of the state. -/
theorem C49_transformations (env : Env) (s k : State) :
    aes.subBytes s = .ok (subBytes s) ∧ aes.shiftRows env s 0 = .ok (shiftRows s) ∧
    aes.mixColumns env s = .ok (mixColumns s) ∧ aes.addRoundKey s k 0 = .ok (addRoundKey s k) := by
  refine ⟨aes.subBytes_eq s, aes.shiftRows_eq env s, aes.mixColumns_eq env s, ?_⟩
  rw [aes.addRoundKey_eq s k 0 (by omega), aes.blk_zero]

/-- C49: `aes_128_encrypt`, although it permutes the round keys and adds them in another order, computes AES-128 under the
all-zero key, and leaves the result in `input` as well. -/
theorem C49_aes_128_encrypt (env : Env) (input output : State) :
    aes.aes_128_encrypt env input output =
      .ok (encrypt (Vector.replicate 16 0) input, encrypt (Vector.replicate 16 0) input) :=
  aes.aes_128_encrypt_eq env input output

set_option maxRecDepth 100000 in
/-- The zero block under the zero key (a published test vector). -/
example : encrypt (Vector.replicate 16 0) (Vector.replicate 16 0) =
    #v[0x66, 0xe9, 0x4b, 0xd4, 0xef, 0x8a, 0x2c, 0x3b, 0x88, 0x4c, 0xfa, 0x59, 0xca, 0x34, 0x2b, 0x2e] := by
  decide +kernel

end WB
