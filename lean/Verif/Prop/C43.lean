import Verif.Proof.SM4Modes
import Verif.Prop.Examples

/-!
# C43 — `sm4_setkey_enc` and `sm4_crypt_ecb` implement SM4 encryption
-/
namespace WB
open SM4

/-- C43: the bundled SM4 (`sm4.c`) computes the cipher of the standard, for every width `W ≥ 32` of `unsigned long`.
After `sm4_setkey_enc` with any key, `sm4_crypt_ecb` with any `length` processes the `⌈length / 16⌉` blocks of the input
buffer: output block `b` is the SM4 encryption of input block `b`, and no other byte changes.  The buffers may be the
same, but must not overlap partially. -/
theorem C43_sm4_ecb_encrypt {W : Nat} (hW : 32 ≤ W) (env : Env) (key : Vector (BitVec 8) 16)
    (ctx0 : sm4.sm4_context W) :
    ∃ ctx, sm4.sm4_setkey_enc env key ctx0 = .ok ctx ∧
      ∀ (mode length : Int) (n : Nat), n = (length.toNat + 15) / 16 →
      ∀ (N : Nat) (mem : Vector (BitVec 8) N) (input output : Nat),
        input + 16 * n ≤ N → output + 16 * n ≤ N →
        (input = output ∨ input + 16 * n ≤ output ∨ output + 16 * n ≤ input) →
        ∃ mem', sm4.sm4_crypt_ecb env ctx mode length mem input output = .ok mem' ∧
          (∀ b, b < n → load (bytes mem') (output + 16 * b) =
            encrypt (load (bytes key) 0) (load (bytes mem) (input + 16 * b))) ∧
          (∀ j, j < output ∨ output + 16 * n ≤ j → bytes mem' j = bytes mem j) := by
  obtain ⟨ctx, hc, -, hk⟩ := sm4.sm4_setkey_enc_ok hW env key ctx0
  refine ⟨ctx, hc, ?_⟩
  rintro mode length n rfl N mem inp out hi ho hno
  obtain ⟨mem', hm, h⟩ := sm4.crypt_ecb_ok hW env ctx _ hk mode length mem inp out hi ho hno
  refine ⟨mem', hm, ?_, ?_⟩
  · intro b hb
    exact sm4.load_of_bytes fun k hk => sm4.storedN_mem h hb hk
  · intro j hj
    rw [h j]
    unfold sm4.storedN
    exact if_neg (by unfold sm4.blocks; omega)

/-- The first example of the standard on a platform with 64-bit `unsigned long`, in place. -/
example : (do
    let ctx ← sm4.sm4_setkey_enc exEnv #v[0x01, 0x23, 0x45, 0x67, 0x89, 0xab, 0xcd, 0xef, 0xfe, 0xdc, 0xba, 0x98, 0x76,
      0x54, 0x32, 0x10] (⟨7, Vector.replicate 32 0#64⟩ : sm4.sm4_context 64)
    sm4.sm4_crypt_ecb exEnv ctx 1 16 #v[0x01, 0x23, 0x45, 0x67, 0x89, 0xab, 0xcd, 0xef, 0xfe, 0xdc, 0xba, 0x98, 0x76,
      0x54, 0x32, 0x10] 0 0) =
    .ok #v[0x68, 0x1e, 0xdf, 0x34, 0xd2, 0x06, 0x96, 0x5e, 0x86, 0xb3, 0xe9, 0x4f, 0x53, 0x6e, 0x42, 0x46] := by
  decide +kernel

end WB
