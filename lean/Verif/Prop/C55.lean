import Verif.Proof.OldLib
import Verif.Prop.C45
import Verif.Prop.C50
import Verif.Prop.C53

/-!
# C55 — the demos are correct with the library they are shipped with
-/
namespace WB
open SM4

/-- C55: white-box SM4 compiled with the bundled library: for every key, every prior contents of the globals and tables,
every state of the random generator and every clock, the generated tables encrypt every block as SM4 does. -/
theorem C55_wbsm4_encrypt {W : Nat} (hW : 32 ≤ W) (env : Env) (he : env.endian = .little) (key : Vector (BitVec 8) 16)
    (g0 : wbsm4.Globals) (ctx0 : wbsm4.Sm4Whitebox) (w : World) :
    ∃ g ctx w', wbsm4.sm4_wb_gen_tables W env (.bundled env) key g0 ctx0 w = .ok ((g, ctx), w') ∧
      ∀ IN OUT, ∃ out, wbsm4.sm4_wb_enc (.bundled env) IN OUT ctx = .ok out ∧
        load (bytes out) 0 = encrypt (load (bytes key) 0) (load (bytes IN) 0) := by
  have hl := wbsm4.libOk_bundled env he
  obtain ⟨⟨⟨g, ctx⟩, w'⟩, h, ht⟩ := wbsm4.gen_tables_ok hW hl env key g0 ctx0 w
  refine ⟨g, ctx, w', h, ?_⟩
  intro IN OUT
  obtain ⟨o, ho, hh⟩ := wbsm4.enc_ok hl ht IN OUT
  exact ⟨o, ho, hh⟩

/-- C55: tables made with one version of the library can be used with the other one: encryption with tables from the
bundled library and encryption with tables from the current library give the same bytes, although the random encodings
differ. -/
theorem C55_wbsm4_versions_agree {W : Nat} (hW : 32 ≤ W) (env : Env) (he : env.endian = .little)
    (key : Vector (BitVec 8) 16) (g0 g0' : wbsm4.Globals) (ctx0 ctx0' : wbsm4.Sm4Whitebox) (w w' : World) :
    ∃ r r', wbsm4.sm4_wb_gen_tables W env (.bundled env) key g0 ctx0 w = .ok r ∧
      wbsm4.sm4_wb_gen_tables W env (.current env) key g0' ctx0' w' = .ok r' ∧
      ∀ IN OUT OUT', wbsm4.sm4_wb_enc (.bundled env) IN OUT r.1.2 = wbsm4.sm4_wb_enc (.current env) IN OUT' r'.1.2 := by
  obtain ⟨g, c, v, h, hh⟩ := C55_wbsm4_encrypt hW env he key g0 ctx0 w
  obtain ⟨g', c', v', h', hh'⟩ := C45_wbsm4_encrypt hW env he key g0' ctx0' w'
  refine ⟨_, _, h, h', ?_⟩
  intro IN OUT OUT'
  obtain ⟨o, ho, e⟩ := hh IN OUT
  obtain ⟨o', ho', e'⟩ := hh' IN OUT'
  rw [ho, ho']
  congr 1
  refine sm4.bytes_ext.1 ?_
  intro j
  by_cases hj : j < 16
  · have a := sm4.byte_load (bytes o) 0 j hj
    have a' := sm4.byte_load (bytes o') 0 j hj
    rw [Nat.zero_add] at a a'
    rw [← a, ← a', e, e']
  · rw [sm4.bytes_ge o (by omega), sm4.bytes_ge o' (by omega)]

/-- C55: white-box AES compiled with the bundled library computes AES-128. -/
theorem C55_wbaes_encrypt (env : Env) (key : AES.State) (ek0 : Vector (BitVec 8) 176) (T0 : aes.Tables) (w : World) :
    ∃ ek T ek' w', aes.expandKey key ek0 = .ok ek ∧
      aes.computeTables false env (.bundled env) T0 ek w = .ok ((T, ek'), w') ∧
      ∀ input output, aes.aes_128_table_encrypt env T input output =
        .ok (AES.encrypt key input, AES.encrypt key input) := by
  rw [aes.bundled_eq]
  exact C50_wbaes_encrypt env key ek0 T0 w

/-- C55: the AES demo produces exactly the same tables with both versions, and leaves the same state behind. -/
theorem C55_wbaes_same_tables (ov : Bool) (env : Env) (T0 : aes.Tables) (ek : Vector (BitVec 8) 176) (w : World) :
    aes.computeTables ov env (.bundled env) T0 ek w = aes.computeTables ov env (.current env) T0 ek w := by
  rw [aes.bundled_eq]

/-- C55: the key can be read off the tables of the demo as shipped, too (see C53). -/
theorem C55_wbaes_tables_reveal_key (env : Env) (key : AES.State) (ek0 : Vector (BitVec 8) 176) (T0 : aes.Tables)
    (w : World) :
    ∃ ek T ek' w', aes.expandKey key ek0 = .ok ek ∧
      aes.computeTables false env (.bundled env) T0 ek w = .ok ((T, ek'), w') ∧
      (Vector.ofFn fun j : Fin 16 => T.TBoxes[0][j][0]) = AES.subBytes (AES.shiftRows key) := by
  rw [aes.bundled_eq]
  exact C53_tables_reveal_key env key ek0 T0 w

/-- The first example of the standard, for arbitrary encodings: the tables made with the bundled library produce the
published ciphertext. -/
example (g0 : wbsm4.Globals) (ctx0 : wbsm4.Sm4Whitebox) :
    let b : Vector (BitVec 8) 16 := #v[0x01, 0x23, 0x45, 0x67, 0x89, 0xab, 0xcd, 0xef, 0xfe, 0xdc, 0xba, 0x98, 0x76,
      0x54, 0x32, 0x10]
    ∃ g ctx w', wbsm4.sm4_wb_gen_tables 64 exEnv (.bundled exEnv) b g0 ctx0 exWorld = .ok ((g, ctx), w') ∧
      ∃ out, wbsm4.sm4_wb_enc (.bundled exEnv) b b ctx = .ok out ∧
        load (bytes out) 0 = ⟨0x681edf34, 0xd206965e, 0x86b3e94f, 0x536e4246⟩ := by
  intro b
  obtain ⟨g, ctx, w', h, hh⟩ := C55_wbsm4_encrypt (W := 64) (by omega) exEnv rfl b g0 ctx0 exWorld
  obtain ⟨o, ho, e⟩ := hh b b
  refine ⟨g, ctx, w', h, o, ho, e.trans ?_⟩
  have : load (bytes b) 0 = ⟨0x01234567, 0x89abcdef, 0xfedcba98, 0x76543210⟩ := by decide +kernel
  rw [this]
  decide +kernel

end WB
