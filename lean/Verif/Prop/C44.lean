import Verif.Proof.SM4Modes
import Verif.Prop.Examples

/-!
# C44 — SM4 decryption inverts encryption, block by block and in CBC mode
-/
namespace WB
open SM4

/-- C44: SM4 decryption and encryption are inverse to each other. -/
theorem C44_sm4_inverse (mk s : Block) : decrypt mk (encrypt mk s) = s ∧ encrypt mk (decrypt mk s) = s :=
  ⟨sm4.decrypt_encrypt mk s, sm4.encrypt_decrypt mk s⟩

/-- C44: `sm4_setkey_dec` and `sm4_crypt_ecb` decrypt: output block `b` is the SM4 decryption of input block `b`. -/
theorem C44_sm4_ecb_decrypt {W : Nat} (hW : 32 ≤ W) (env : Env) (key : Vector (BitVec 8) 16)
    (ctx0 : sm4.sm4_context W) :
    ∃ ctx, sm4.sm4_setkey_dec env key ctx0 = .ok ctx ∧
      ∀ (mode length : Int) (n : Nat), n = (length.toNat + 15) / 16 →
      ∀ (N : Nat) (mem : Vector (BitVec 8) N) (input output : Nat),
        input + 16 * n ≤ N → output + 16 * n ≤ N →
        (input = output ∨ input + 16 * n ≤ output ∨ output + 16 * n ≤ input) →
        ∃ mem', sm4.sm4_crypt_ecb env ctx mode length mem input output = .ok mem' ∧
          (∀ b, b < n → load (bytes mem') (output + 16 * b) =
            decrypt (load (bytes key) 0) (load (bytes mem) (input + 16 * b))) ∧
          (∀ j, j < output ∨ output + 16 * n ≤ j → bytes mem' j = bytes mem j) := by
  obtain ⟨ctx, hc, -, hk⟩ := sm4.sm4_setkey_dec_ok hW env key ctx0
  refine ⟨ctx, hc, ?_⟩
  rintro mode length n rfl N mem inp out hi ho hno
  obtain ⟨mem', hm, h⟩ := sm4.crypt_ecb_ok hW env ctx _ hk mode length mem inp out hi ho hno
  refine ⟨mem', hm, ?_, ?_⟩
  · intro b hb
    exact sm4.load_of_bytes fun k hk => sm4.storedN_mem h hb hk
  · intro j hj
    rw [h j]
    unfold sm4.storedN
    exact if_neg (by unfold sm4.blocks; omega)

/-- C44: `sm4_crypt_cbc` in mode `SM4_ENCRYPT` is cipher block chaining: output block `b` is chain value `b + 1`, and
`iv` holds the last chain value afterwards. -/
theorem C44_sm4_cbc_encrypt {W : Nat} (hW : 32 ≤ W) (env : Env) (key : Vector (BitVec 8) 16)
    (ctx0 : sm4.sm4_context W) :
    ∃ ctx, sm4.sm4_setkey_enc env key ctx0 = .ok ctx ∧
      ∀ (length : Int) (n : Nat), n = (length.toNat + 15) / 16 →
      ∀ (iv : Vector (BitVec 8) 16) (N : Nat) (mem : Vector (BitVec 8) N) (input output : Nat),
        input + 16 * n ≤ N → output + 16 * n ≤ N →
        (input = output ∨ input + 16 * n ≤ output ∨ output + 16 * n ≤ input) →
        ∃ mem' iv', sm4.sm4_crypt_cbc env ctx 1 length iv mem input output = .ok (mem', iv') ∧
          (∀ b, b < n → load (bytes mem') (output + 16 * b) =
            chain (encrypt (load (bytes key) 0)) (load (bytes iv) 0) (fun b => load (bytes mem) (input + 16 * b)) (b + 1)) ∧
          (∀ j, j < output ∨ output + 16 * n ≤ j → bytes mem' j = bytes mem j) ∧
          load (bytes iv') 0 =
            chain (encrypt (load (bytes key) 0)) (load (bytes iv) 0) (fun b => load (bytes mem) (input + 16 * b)) n := by
  obtain ⟨ctx, hc, -, hk⟩ := sm4.sm4_setkey_enc_ok hW env key ctx0
  refine ⟨ctx, hc, ?_⟩
  rintro length n rfl iv N mem inp out hi ho hno
  obtain ⟨⟨mem', iv'⟩, hm, h, hv⟩ := sm4.crypt_cbc_enc_ok hW env ctx _ hk length iv mem inp out hi ho hno
  refine ⟨mem', iv', hm, ?_, ?_, hv⟩
  · intro b hb
    exact sm4.load_of_bytes fun k hk => sm4.storedN_mem h hb hk
  · intro j hj
    have := h j
    simp only at this
    rw [this]
    unfold sm4.storedN
    exact if_neg (by unfold sm4.blocks; omega)

theorem Block.add_add (s t : Block) : (s.add t).add t = s := by
  obtain ⟨a, b, c, d⟩ := s
  simp only [Block.add, BitVec.xor_assoc, BitVec.xor_self, BitVec.xor_zero]

/-- C44: encrypting a message with `sm4_crypt_cbc` and decrypting the result with `sm4_crypt_cbc` (decryption key
schedule, same initial value, any mode other than `SM4_ENCRYPT`) restores the message, for any number of blocks and all
placements of the three buffers in which no two overlap partially. -/
theorem C44_sm4_cbc_roundtrip {W : Nat} (hW : 32 ≤ W) (env : Env) (key : Vector (BitVec 8) 16)
    (ctx0 ctx1 : sm4.sm4_context W) :
    ∃ ce cd, sm4.sm4_setkey_enc env key ctx0 = .ok ce ∧ sm4.sm4_setkey_dec env key ctx1 = .ok cd ∧
      ∀ (mode : Int), mode ≠ 1 → ∀ (length : Int) (n : Nat), n = (length.toNat + 15) / 16 →
      ∀ (iv : Vector (BitVec 8) 16) (N : Nat) (mem : Vector (BitVec 8) N) (plain cipher back : Nat),
        plain + 16 * n ≤ N → cipher + 16 * n ≤ N → back + 16 * n ≤ N →
        (plain = cipher ∨ plain + 16 * n ≤ cipher ∨ cipher + 16 * n ≤ plain) →
        (cipher = back ∨ cipher + 16 * n ≤ back ∨ back + 16 * n ≤ cipher) →
        ∃ mem' iv' mem'' iv'', sm4.sm4_crypt_cbc env ce 1 length iv mem plain cipher = .ok (mem', iv') ∧
          sm4.sm4_crypt_cbc env cd mode length iv mem' cipher back = .ok (mem'', iv'') ∧
          (∀ j, j < 16 * n → bytes mem'' (back + j) = bytes mem (plain + j)) ∧
          bytes iv'' = bytes iv' := by
  obtain ⟨ce, he, H⟩ := C44_sm4_cbc_encrypt hW env key ctx0
  obtain ⟨cd, hd, -, hk⟩ := sm4.sm4_setkey_dec_ok hW env key ctx1
  refine ⟨ce, cd, he, hd, ?_⟩
  rintro mode hmode length n hn iv N mem plain cipher back hp hc hb ho1 ho2
  obtain ⟨mem', iv', h1, hc1, -, hv⟩ := H length n hn iv N mem plain cipher hp hc ho1
  subst hn
  obtain ⟨⟨mem'', iv''⟩, h2, hc2, hv2⟩ :=
    sm4.crypt_cbc_dec_ok hW env cd _ hk mode hmode length iv mem' cipher back hc hb ho2
  refine ⟨mem', iv', mem'', iv'', h1, h2, ?_, ?_⟩
  · intro j hj
    have hb' : j / 16 < (length.toNat + 15) / 16 := by omega
    have := sm4.storedN_mem hc2 (b := j / 16) (k := j % 16) hb' (by omega)
    rw [show back + 16 * (j / 16) + j % 16 = back + j by omega] at this
    simp only at this
    rw [this]
    have key0 : (crypt (fun i => roundKey (load (bytes key) 0) (31 - i)) (load (bytes mem') (cipher + 16 * (j / 16)))).add
        (if j / 16 = 0 then load (bytes iv) 0 else load (bytes mem') (cipher + 16 * (j / 16 - 1))) =
        load (bytes mem) (plain + 16 * (j / 16)) := by
      rw [hc1 _ hb', chain]
      have e : (if j / 16 = 0 then load (bytes iv) 0 else load (bytes mem') (cipher + 16 * (j / 16 - 1))) =
          chain (encrypt (load (bytes key) 0)) (load (bytes iv) 0) (fun b => load (bytes mem) (plain + 16 * b)) (j / 16) := by
        by_cases c : j / 16 = 0
        · rw [if_pos c, c]; rfl
        · rw [if_neg c, hc1 _ (by omega), show j / 16 - 1 + 1 = j / 16 by omega]
      rw [e]
      have := sm4.decrypt_encrypt (load (bytes key) 0) ((load (bytes mem) (plain + 16 * (j / 16))).add
        (chain (encrypt (load (bytes key) 0)) (load (bytes iv) 0) (fun b => load (bytes mem) (plain + 16 * b)) (j / 16)))
      unfold decrypt at this
      rw [this, Block.add_add]
    rw [key0, sm4.byte_load _ _ _ (by omega), show plain + 16 * (j / 16) + j % 16 = plain + j by omega]
  · have e : load (bytes iv'') 0 = load (bytes iv') 0 := by
      have hv2' : load (bytes iv'') 0 = _ := hv2
      rw [hv2', hv]
      unfold sm4.blocks
      by_cases c : (length.toNat + 15) / 16 = 0
      · rw [if_pos c, c]; rfl
      · rw [if_neg c, hc1 _ (by omega), Nat.sub_add_cancel (by omega)]
    funext j
    by_cases hj : j < 16
    · have := congrArg (fun s => Block.byte s j) e
      simp only [sm4.byte_load _ _ _ hj, Nat.zero_add] at this
      exact this
    · rw [sm4.bytes_ge _ (by omega), sm4.bytes_ge _ (by omega)]

/-- C44: encrypting and decrypting with `sm4_crypt_ecb` restores the message. -/
theorem C44_sm4_ecb_roundtrip {W : Nat} (hW : 32 ≤ W) (env : Env) (key : Vector (BitVec 8) 16)
    (ctx0 ctx1 : sm4.sm4_context W) :
    ∃ ce cd, sm4.sm4_setkey_enc env key ctx0 = .ok ce ∧ sm4.sm4_setkey_dec env key ctx1 = .ok cd ∧
      ∀ (mode mode' : Int) (length : Int) (n : Nat), n = (length.toNat + 15) / 16 →
      ∀ (N : Nat) (mem : Vector (BitVec 8) N) (plain cipher back : Nat),
        plain + 16 * n ≤ N → cipher + 16 * n ≤ N → back + 16 * n ≤ N →
        (plain = cipher ∨ plain + 16 * n ≤ cipher ∨ cipher + 16 * n ≤ plain) →
        (cipher = back ∨ cipher + 16 * n ≤ back ∨ back + 16 * n ≤ cipher) →
        ∃ mem' mem'', sm4.sm4_crypt_ecb env ce mode length mem plain cipher = .ok mem' ∧
          sm4.sm4_crypt_ecb env cd mode' length mem' cipher back = .ok mem'' ∧
          (∀ j, j < 16 * n → bytes mem'' (back + j) = bytes mem (plain + j)) := by
  obtain ⟨ce, he, -, hk1⟩ := sm4.sm4_setkey_enc_ok hW env key ctx0
  obtain ⟨cd, hd, H⟩ := C44_sm4_ecb_decrypt hW env key ctx1
  refine ⟨ce, cd, he, hd, ?_⟩
  rintro mode mode' length n hn N mem plain cipher back hp hc hb ho1 ho2
  subst hn
  obtain ⟨mem', h1, hc1⟩ := sm4.crypt_ecb_ok hW env ce _ hk1 mode length mem plain cipher hp hc ho1
  obtain ⟨mem'', h2, hc2, -⟩ := H mode' length _ rfl N mem' cipher back hc hb ho2
  refine ⟨mem', mem'', h1, h2, ?_⟩
  intro j hj
  have hb' : j / 16 < (length.toNat + 15) / 16 := by omega
  have e1 : load (bytes mem') (cipher + 16 * (j / 16)) = encrypt (load (bytes key) 0) (load (bytes mem) (plain + 16 * (j / 16))) :=
    sm4.load_of_bytes fun k hk => sm4.storedN_mem hc1 hb' hk
  have e2 := hc2 _ hb'
  rw [e1, sm4.decrypt_encrypt] at e2
  have := congrArg (fun s => Block.byte s (j % 16)) e2
  simp only [sm4.byte_load _ _ _ (show j % 16 < 16 by omega)] at this
  rw [show back + 16 * (j / 16) + j % 16 = back + j by omega,
    show plain + 16 * (j / 16) + j % 16 = plain + j by omega] at this
  exact this

/-- Two blocks in CBC mode and back. -/
example : (do
    let key := #v[0x01, 0x23, 0x45, 0x67, 0x89, 0xab, 0xcd, 0xef, 0xfe, 0xdc, 0xba, 0x98, 0x76, 0x54, 0x32, 0x10]
    let ce ← sm4.sm4_setkey_enc exEnv key (⟨7, Vector.replicate 32 0#32⟩ : sm4.sm4_context 32)
    let cd ← sm4.sm4_setkey_dec exEnv key (⟨7, Vector.replicate 32 0#32⟩ : sm4.sm4_context 32)
    let (m, _) ← sm4.sm4_crypt_cbc exEnv ce 1 32 key (Vector.replicate 32 0xaa#8) 0 0
    let (m', _) ← sm4.sm4_crypt_cbc exEnv cd 0 32 key m 0 0
    pure (decide (m = Vector.replicate 32 0xaa#8), m')) = .ok (false, Vector.replicate 32 0xaa#8) := by
  decide +kernel

end WB
