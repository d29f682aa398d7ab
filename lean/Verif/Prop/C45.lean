import Verif.Proof.WBSM4
import Verif.Prop.Examples

/-!
# C45 — the white-box SM4 demo computes SM4
-/
namespace WB
open SM4

/-- C45: on a little-endian machine, for every key, every prior contents of the global variables and of the table object,
every state of the random generator and every clock, `sm4_wb_gen_tables` returns tables with which `sm4_wb_enc` computes
the SM4 encryption of every block under that key.  (`W` is the width of `unsigned long`.) -/
theorem C45_wbsm4_encrypt {W : Nat} (hW : 32 ≤ W) (env : Env) (he : env.endian = .little) (key : Vector (BitVec 8) 16)
    (g0 : wbsm4.Globals) (ctx0 : wbsm4.Sm4Whitebox) (w : World) :
    ∃ g ctx w', wbsm4.sm4_wb_gen_tables W env (.current env) key g0 ctx0 w = .ok ((g, ctx), w') ∧
      ∀ IN OUT, ∃ out, wbsm4.sm4_wb_enc (.current env) IN OUT ctx = .ok out ∧
        load (bytes out) 0 = encrypt (load (bytes key) 0) (load (bytes IN) 0) := by
  have hl := wbsm4.libOk_current env he
  obtain ⟨⟨⟨g, ctx⟩, w'⟩, h, ht⟩ := wbsm4.gen_tables_ok hW hl env key g0 ctx0 w
  refine ⟨g, ctx, w', h, ?_⟩
  intro IN OUT
  obtain ⟨o, ho, hh⟩ := wbsm4.enc_ok hl ht IN OUT
  exact ⟨o, ho, hh⟩

/-- C45: the random encodings are invisible: tables generated for one key in two different states of the world encrypt
every block to the same bytes. -/
theorem C45_wbsm4_encodings_invisible {W : Nat} (hW : 32 ≤ W) (env : Env) (he : env.endian = .little)
    (key : Vector (BitVec 8) 16) (g0 g0' : wbsm4.Globals) (ctx0 ctx0' : wbsm4.Sm4Whitebox) (w w' : World) :
    ∃ r r', wbsm4.sm4_wb_gen_tables W env (.current env) key g0 ctx0 w = .ok r ∧
      wbsm4.sm4_wb_gen_tables W env (.current env) key g0' ctx0' w' = .ok r' ∧
      ∀ IN OUT OUT', wbsm4.sm4_wb_enc (.current env) IN OUT r.1.2 = wbsm4.sm4_wb_enc (.current env) IN OUT' r'.1.2 := by
  obtain ⟨g, c, v, h, hh⟩ := C45_wbsm4_encrypt hW env he key g0 ctx0 w
  obtain ⟨g', c', v', h', hh'⟩ := C45_wbsm4_encrypt hW env he key g0' ctx0' w'
  refine ⟨_, _, h, h', ?_⟩
  intro IN OUT OUT'
  obtain ⟨o, ho, e⟩ := hh IN OUT
  obtain ⟨o', ho', e'⟩ := hh' IN OUT'
  rw [ho, ho']
  congr 1
  refine sm4.bytes_ext.1 ?_
  intro j
  by_cases hj : j < 16
  · have a := sm4.byte_load (bytes o) 0 j hj
    have a' := sm4.byte_load (bytes o') 0 j hj
    rw [Nat.zero_add] at a a'
    rw [← a, ← a', e, e']
  · rw [sm4.bytes_ge o (by omega), sm4.bytes_ge o' (by omega)]

/-- The first example of the standard, for arbitrary encodings: the white-box tables produce the published ciphertext. -/
example (g0 : wbsm4.Globals) (ctx0 : wbsm4.Sm4Whitebox) :
    let b : Vector (BitVec 8) 16 := #v[0x01, 0x23, 0x45, 0x67, 0x89, 0xab, 0xcd, 0xef, 0xfe, 0xdc, 0xba, 0x98, 0x76,
      0x54, 0x32, 0x10]
    ∃ g ctx w', wbsm4.sm4_wb_gen_tables 64 exEnv (.current exEnv) b g0 ctx0 exWorld = .ok ((g, ctx), w') ∧
      ∃ out, wbsm4.sm4_wb_enc (.current exEnv) b b ctx = .ok out ∧
        load (bytes out) 0 = ⟨0x681edf34, 0xd206965e, 0x86b3e94f, 0x536e4246⟩ := by
  intro b
  obtain ⟨g, ctx, w', h, hh⟩ := C45_wbsm4_encrypt (W := 64) (by omega) exEnv rfl b g0 ctx0 exWorld
  obtain ⟨o, ho, e⟩ := hh b b
  refine ⟨g, ctx, w', h, o, ho, e.trans ?_⟩
  have : load (bytes b) 0 = ⟨0x01234567, 0x89abcdef, 0xfedcba98, 0x76543210⟩ := by decide +kernel
  rw [this]
  decide +kernel

end WB
