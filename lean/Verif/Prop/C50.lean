import Verif.Proof.AESEnc
import Verif.Prop.Examples

/-!
# C50 — the white-box AES demo computes AES-128
-/
namespace WB
open AES

/-- C50: for every key, every prior contents of the tables and of the key array, every state of the random generator and
every clock, `expandKey` followed by one call of `computeTables` produces tables with which `aes_128_table_encrypt`
computes the AES-128 encryption of every block under that key.  (Left shifts of an `int` whose result does not fit wrap,
as gcc documents; see C52.) -/
theorem C50_wbaes_encrypt (env : Env) (key : State) (ek0 : Vector (BitVec 8) 176) (T0 : aes.Tables) (w : World) :
    ∃ ek T ek' w', aes.expandKey key ek0 = .ok ek ∧
      aes.computeTables false env (.current env) T0 ek w = .ok ((T, ek'), w') ∧
      ∀ input output, aes.aes_128_table_encrypt env T input output = .ok (encrypt key input, encrypt key input) := by
  obtain ⟨ek, hek, hk⟩ := aes.expandKey_keyOk key ek0
  obtain ⟨⟨⟨T, ek'⟩, w'⟩, h, ⟨M, N, ht⟩, -⟩ := aes.computeTables_ok env (aes.libOk_current env) _ T0 ek hk w
  exact ⟨ek, T, ek', w', hek, h, fun i o => aes.table_encrypt_eq env ht i o⟩

/-- C50: with the generated tables, `mixColumns_table` is the MixColumns transformation. -/
theorem C50_mixColumns_table (env : Env) (key : State) (ek0 : Vector (BitVec 8) 176) (T0 : aes.Tables) (w : World) :
    ∃ ek T ek' w', aes.expandKey key ek0 = .ok ek ∧
      aes.computeTables false env (.current env) T0 ek w = .ok ((T, ek'), w') ∧
      ∀ s, aes.mixColumns_table env T s = .ok (mixColumns s) := by
  obtain ⟨ek, hek, hk⟩ := aes.expandKey_keyOk key ek0
  obtain ⟨⟨⟨T, ek'⟩, w'⟩, h, ⟨M, N, ht⟩, -⟩ := aes.computeTables_ok env (aes.libOk_current env) _ T0 ek hk w
  exact ⟨ek, T, ek', w', hek, h, fun s => aes.mixColumns_table_eq env ht.tyi s⟩

/-- C50: the random encodings are invisible: tables generated from one expanded key in two different states of the world
encrypt every block to the same bytes. -/
theorem C50_wbaes_encodings_invisible (env : Env) (key : State) (ek0 : Vector (BitVec 8) 176) (T0 T0' : aes.Tables)
    (w v : World) :
    ∃ ek r r', aes.expandKey key ek0 = .ok ek ∧ aes.computeTables false env (.current env) T0 ek w = .ok r ∧
      aes.computeTables false env (.current env) T0' ek v = .ok r' ∧
      ∀ input output output', aes.aes_128_table_encrypt env r.1.1 input output =
        aes.aes_128_table_encrypt env r'.1.1 input output' := by
  obtain ⟨ek, T, e1, w1, hek, h, hh⟩ := C50_wbaes_encrypt env key ek0 T0 w
  obtain ⟨ek', T', e2, w2, hek', h', hh'⟩ := C50_wbaes_encrypt env key ek0 T0' v
  rw [hek] at hek'
  cases hek'
  exact ⟨ek, _, _, hek, h, h', fun i o o' => by rw [hh, hh']⟩

set_option maxRecDepth 100000 in
/-- The example of FIPS 197, appendix C.1, for arbitrary encodings: the tables produce the published ciphertext. -/
example (ek0 : Vector (BitVec 8) 176) (T0 : aes.Tables) (output : State) :
    ∃ ek T ek' w', aes.expandKey #v[0x00, 0x01, 0x02, 0x03, 0x04, 0x05, 0x06, 0x07, 0x08, 0x09, 0x0a, 0x0b, 0x0c, 0x0d,
        0x0e, 0x0f] ek0 = .ok ek ∧
      aes.computeTables false exEnv (.current exEnv) T0 ek exWorld = .ok ((T, ek'), w') ∧
      ∃ i, aes.aes_128_table_encrypt exEnv T #v[0x00, 0x11, 0x22, 0x33, 0x44, 0x55, 0x66, 0x77, 0x88, 0x99, 0xaa, 0xbb,
        0xcc, 0xdd, 0xee, 0xff] output = .ok (i, #v[0x69, 0xc4, 0xe0, 0xd8, 0x6a, 0x7b, 0x04, 0x30, 0xd8, 0xcd, 0xb7,
        0x80, 0x70, 0xb4, 0xc5, 0x5a]) := by
  obtain ⟨ek, T, ek', w', h1, h2, h3⟩ := C50_wbaes_encrypt exEnv #v[0x00, 0x01, 0x02, 0x03, 0x04, 0x05, 0x06, 0x07, 0x08,
    0x09, 0x0a, 0x0b, 0x0c, 0x0d, 0x0e, 0x0f] ek0 T0 exWorld
  have : encrypt #v[0x00, 0x01, 0x02, 0x03, 0x04, 0x05, 0x06, 0x07, 0x08, 0x09, 0x0a, 0x0b, 0x0c, 0x0d, 0x0e, 0x0f]
      #v[0x00, 0x11, 0x22, 0x33, 0x44, 0x55, 0x66, 0x77, 0x88, 0x99, 0xaa, 0xbb, 0xcc, 0xdd, 0xee, 0xff] =
      #v[0x69, 0xc4, 0xe0, 0xd8, 0x6a, 0x7b, 0x04, 0x30, 0xd8, 0xcd, 0xb7, 0x80, 0x70, 0xb4, 0xc5, 0x5a] := by
    decide +kernel
  refine ⟨ek, T, ek', w', h1, h2, #v[0x69, 0xc4, 0xe0, 0xd8, 0x6a, 0x7b, 0x04, 0x30, 0xd8, 0xcd, 0xb7, 0x80, 0x70, 0xb4,
    0xc5, 0x5a], ?_⟩
  rw [h3, this]

end WB
