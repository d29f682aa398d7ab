import Verif.Proof.AESRound
import Verif.Proof.WBAESNtl

/-!
# C81 — the NTL based white-box AES demo computes AES-128

As in C76, `computeTables` may still be waiting for other random bits after `fuel` attempts per row or matrix.
-/
namespace WB.ntl
open AES

variable (stale : Nat → Nat → ZMod 2) (fuel : Nat) (s : Rnd)

/-- C81: for every key, every prior contents of the global tables and of the array for the expanded key, every sequence of
random bits and both byte orders: either `computeTables` is still drawing random bits, or the tables that it fills encrypt every
block with AES-128 under the key. -/
theorem C81_encrypt (env : Env) (key : State) (ek0 : Vector (BitVec 8) 176) (T0 : WB.aes.Tables) :
    ∃ ek, WB.aes.expandKey key ek0 = .ok ek ∧
      ((∃ T ek' s', aes.computeTables stale fuel env T0 ek s = .ok ((T, ek'), s') ∧
        ∀ input output, WB.aes.aes_128_table_encrypt env T input output = .ok (encrypt key input, encrypt key input)) ∨
      aes.computeTables stale fuel env T0 ek s = .error .diverge) := by
  obtain ⟨ek, hek, hk⟩ := WB.aes.expandKey_keyOk key ek0
  refine ⟨ek, hek, ?_⟩
  rcases (aes.computeTables_gen stale fuel env _ T0 ek hk).run s with ⟨⟨T, ek'⟩, s', e, ⟨M, N, ht⟩, -⟩ | h
  · exact .inl ⟨T, ek', s', e, fun i o => WB.aes.table_encrypt_eq env ht i o⟩
  · exact .inr h

/-- C81: with these tables, `mixColumns_table` is MixColumns. -/
theorem C81_mixColumns_table (env : Env) (key : State) (ek0 : Vector (BitVec 8) 176) (T0 : WB.aes.Tables) :
    ∃ ek, WB.aes.expandKey key ek0 = .ok ek ∧
      ((∃ T ek' s', aes.computeTables stale fuel env T0 ek s = .ok ((T, ek'), s') ∧
        ∀ x, WB.aes.mixColumns_table env T x = .ok (mixColumns x)) ∨
      aes.computeTables stale fuel env T0 ek s = .error .diverge) := by
  obtain ⟨ek, hek, hk⟩ := WB.aes.expandKey_keyOk key ek0
  refine ⟨ek, hek, ?_⟩
  rcases (aes.computeTables_gen stale fuel env _ T0 ek hk).run s with ⟨⟨T, ek'⟩, s', e, ⟨M, N, ht⟩, -⟩ | h
  · exact .inl ⟨T, ek', s', e, fun x => WB.aes.mixColumns_table_eq env ht.tyi x⟩
  · exact .inr h

/-- C81: wherever the generator of random bits stands, it can deliver bits with which `computeTables` returns, already with one
attempt per row and matrix. -/
theorem C81_generation_can_return (hf : 1 ≤ fuel) (env : Env) (key : State) (ek0 : Vector (BitVec 8) 176) (T0 : WB.aes.Tables)
    (p : Nat) :
    ∃ ek bits r s', WB.aes.expandKey key ek0 = .ok ek ∧ aes.computeTables stale fuel env T0 ek ⟨bits, p⟩ = .ok (r, s') := by
  obtain ⟨ek, hek, hk⟩ := WB.aes.expandKey_keyOk key ek0
  obtain ⟨bits, r, s', e, -⟩ := ((aes.computeTables_gen stale fuel env _ T0 ek hk).can hf).exists_bits p
  exact ⟨ek, bits, r, s', hek, e⟩

/-- C81: the tables of this demo and those of the demo with the WBMatrix library, generated for the same key, encrypt every block
to the same bytes, whatever the random encodings of the two are. -/
theorem C81_same_as_WBMatrix (env : Env) (key : State) (ek0 : Vector (BitVec 8) 176) (T0 T0' : WB.aes.Tables) (w : World)
    {ek ek' : Vector (BitVec 8) 176} {T : WB.aes.Tables} {s' : Rnd} (hk : WB.aes.expandKey key ek0 = .ok ek)
    (h : aes.computeTables stale fuel env T0 ek s = .ok ((T, ek'), s')) :
    ∃ r, WB.aes.computeTables false env (.current env) T0' ek w = .ok r ∧
      ∀ input output, WB.aes.aes_128_table_encrypt env T input output =
        WB.aes.aes_128_table_encrypt env r.1.1 input output := by
  obtain ⟨ek1, h1, hk1⟩ := WB.aes.expandKey_keyOk key ek0
  rw [hk] at h1; cases h1
  obtain ⟨⟨⟨T', ek2⟩, w'⟩, h2, ⟨M', N', ht'⟩, -⟩ := WB.aes.computeTables_ok env (WB.aes.libOk_current env) _ T0' ek hk1 w
  refine ⟨_, h2, fun i o => ?_⟩
  rcases (aes.computeTables_gen stale fuel env _ T0 ek hk1).run s with ⟨⟨T1, ek3⟩, s1, e, ⟨M, N, ht⟩, -⟩ | e
  · rw [h] at e
    cases e
    rw [WB.aes.table_encrypt_eq env ht i o, WB.aes.table_encrypt_eq env ht' i o]
  · rw [h] at e; cases e

set_option maxRecDepth 100000 in
/-- With suitable random bits the function returns, and the tables produce the ciphertext of FIPS 197, appendix C.1. -/
example (env : Env) (ek0 : Vector (BitVec 8) 176) (T0 : WB.aes.Tables) (output : State) :
    ∃ ek bits T ek' s' i, WB.aes.expandKey #v[0x00, 0x01, 0x02, 0x03, 0x04, 0x05, 0x06, 0x07, 0x08, 0x09, 0x0a, 0x0b, 0x0c, 0x0d,
        0x0e, 0x0f] ek0 = .ok ek ∧
      aes.computeTables stale 1 env T0 ek ⟨bits, 0⟩ = .ok ((T, ek'), s') ∧
      WB.aes.aes_128_table_encrypt env T #v[0x00, 0x11, 0x22, 0x33, 0x44, 0x55, 0x66, 0x77, 0x88, 0x99, 0xaa, 0xbb,
        0xcc, 0xdd, 0xee, 0xff] output = .ok (i, #v[0x69, 0xc4, 0xe0, 0xd8, 0x6a, 0x7b, 0x04, 0x30, 0xd8, 0xcd, 0xb7,
        0x80, 0x70, 0xb4, 0xc5, 0x5a]) := by
  obtain ⟨ek, bits, ⟨T, ek'⟩, s', h1, h2⟩ := C81_generation_can_return stale 1 (Nat.le_refl _) env #v[0x00, 0x01, 0x02, 0x03, 0x04,
    0x05, 0x06, 0x07, 0x08, 0x09, 0x0a, 0x0b, 0x0c, 0x0d, 0x0e, 0x0f] ek0 T0 0
  obtain ⟨ek1, h3, h⟩ := C81_encrypt stale 1 ⟨bits, 0⟩ env #v[0x00, 0x01, 0x02, 0x03, 0x04, 0x05, 0x06, 0x07, 0x08,
    0x09, 0x0a, 0x0b, 0x0c, 0x0d, 0x0e, 0x0f] ek0 T0
  rw [h1] at h3; cases h3
  have : encrypt #v[0x00, 0x01, 0x02, 0x03, 0x04, 0x05, 0x06, 0x07, 0x08, 0x09, 0x0a, 0x0b, 0x0c, 0x0d, 0x0e, 0x0f]
      #v[0x00, 0x11, 0x22, 0x33, 0x44, 0x55, 0x66, 0x77, 0x88, 0x99, 0xaa, 0xbb, 0xcc, 0xdd, 0xee, 0xff] =
      #v[0x69, 0xc4, 0xe0, 0xd8, 0x6a, 0x7b, 0x04, 0x30, 0xd8, 0xcd, 0xb7, 0x80, 0x70, 0xb4, 0xc5, 0x5a] := by
    decide +kernel
  rcases h with ⟨T1, ek1, s1, e, h⟩ | e
  · rw [h2] at e; cases e
    exact ⟨ek, bits, T, ek', s', _, h1, h2, by rw [h, this]⟩
  · rw [h2] at e; cases e

end WB.ntl
