import Verif.Proof.AESRound
import Verif.Proof.WBAESM4ri
import Verif.Prop.C71

/-!
# C73 — the M4RI based white-box AES demo computes AES-128
-/
namespace WB.m4ri
open AES

variable {lib : M4ri} {s : Heap}

/-- C73: for every key, every prior contents of the global tables and of the array for the expanded key, every state of the
heap, every sequence of random bits and both byte orders: either `computeTables` does not return within `fuel` draws per matrix
because all of them were singular, or the tables that it fills encrypt every block with AES-128 under the key. -/
theorem C73_encrypt (hl : lib.Ok) (hs : s.Ok) (fuel : Nat) (env : Env) (key : State) (ek0 : Vector (BitVec 8) 176)
    (T0 : WB.aes.Tables) :
    ∃ ek, WB.aes.expandKey key ek0 = .ok ek ∧
      ((aes.computeTables lib false fuel env T0 ek s = .error (.c .diverge) ∧ Unlucky lib fuel) ∨
      ∃ T ek' s', aes.computeTables lib false fuel env T0 ek s = .ok ((T, ek'), s') ∧
        ∀ input output, WB.aes.aes_128_table_encrypt env T input output = .ok (encrypt key input, encrypt key input)) := by
  obtain ⟨ek, hek, hk⟩ := WB.aes.expandKey_keyOk key ek0
  refine ⟨ek, hek, ?_⟩
  rcases aes.computeTables_run hl fuel env hs _ T0 ek hk with ⟨d, e⟩ | ⟨⟨T, ek'⟩, s', e, ⟨⟨M, N, ht⟩, -⟩, -⟩
  · exact .inl ⟨e, unlucky_of d⟩
  · exact .inr ⟨T, ek', s', e, fun i o => WB.aes.table_encrypt_eq env ht i o⟩

/-- C73: with these tables, `mixColumns_table` is MixColumns. -/
theorem C73_mixColumns_table (hl : lib.Ok) (hs : s.Ok) (fuel : Nat) (env : Env) (key : State) (ek0 : Vector (BitVec 8) 176)
    (T0 : WB.aes.Tables) :
    ∃ ek, WB.aes.expandKey key ek0 = .ok ek ∧
      ((aes.computeTables lib false fuel env T0 ek s = .error (.c .diverge) ∧ Unlucky lib fuel) ∨
      ∃ T ek' s', aes.computeTables lib false fuel env T0 ek s = .ok ((T, ek'), s') ∧
        ∀ x, WB.aes.mixColumns_table env T x = .ok (mixColumns x)) := by
  obtain ⟨ek, hek, hk⟩ := WB.aes.expandKey_keyOk key ek0
  refine ⟨ek, hek, ?_⟩
  rcases aes.computeTables_run hl fuel env hs _ T0 ek hk with ⟨d, e⟩ | ⟨⟨T, ek'⟩, s', e, ⟨⟨M, N, ht⟩, -⟩, -⟩
  · exact .inl ⟨e, unlucky_of d⟩
  · exact .inr ⟨T, ek', s', e, fun x => WB.aes.mixColumns_table_eq env ht.tyi x⟩

/-- C73: the tables of this demo and those of the demo with the WBMatrix library, generated for the same key, encrypt every block
to the same bytes, whatever the random encodings of the two are. -/
theorem C73_same_as_WBMatrix (hl : lib.Ok) (hs : s.Ok) (fuel : Nat) (env : Env) (key : State) (ek0 : Vector (BitVec 8) 176)
    (T0 T0' : WB.aes.Tables) (w : World) {ek ek' : Vector (BitVec 8) 176} {T : WB.aes.Tables} {s' : Heap}
    (hk : WB.aes.expandKey key ek0 = .ok ek) (h : aes.computeTables lib false fuel env T0 ek s = .ok ((T, ek'), s')) :
    ∃ r, WB.aes.computeTables false env (.current env) T0' ek w = .ok r ∧
      ∀ input output, WB.aes.aes_128_table_encrypt env T input output =
        WB.aes.aes_128_table_encrypt env r.1.1 input output := by
  obtain ⟨ek1, h1, hk1⟩ := WB.aes.expandKey_keyOk key ek0
  rw [hk] at h1; cases h1
  obtain ⟨⟨⟨T', ek2⟩, w'⟩, h2, ⟨M', N', ht'⟩, -⟩ := WB.aes.computeTables_ok env (WB.aes.libOk_current env) _ T0' ek hk1 w
  refine ⟨_, h2, fun i o => ?_⟩
  rcases aes.computeTables_run hl fuel env hs _ T0 ek hk1 with ⟨-, e⟩ | ⟨⟨T1, ek3⟩, s1, e, ⟨⟨M, N, ht⟩, -⟩, -⟩
  · rw [h] at e; cases e
  · rw [h] at e
    cases e
    rw [WB.aes.table_encrypt_eq env ht i o, WB.aes.table_encrypt_eq env ht' i o]

set_option maxRecDepth 100000 in
/-- With a library that satisfies the contract the function returns, and the tables produce the ciphertext of FIPS 197,
appendix C.1. -/
example (env : Env) (ek0 : Vector (BitVec 8) 176) (T0 : WB.aes.Tables) (output : State) :
    ∃ ek T ek' s' i, WB.aes.expandKey #v[0x00, 0x01, 0x02, 0x03, 0x04, 0x05, 0x06, 0x07, 0x08, 0x09, 0x0a, 0x0b, 0x0c, 0x0d,
        0x0e, 0x0f] ek0 = .ok ek ∧
      aes.computeTables luckyLib false 1 env T0 ek exHeap = .ok ((T, ek'), s') ∧
      WB.aes.aes_128_table_encrypt env T #v[0x00, 0x11, 0x22, 0x33, 0x44, 0x55, 0x66, 0x77, 0x88, 0x99, 0xaa, 0xbb,
        0xcc, 0xdd, 0xee, 0xff] output = .ok (i, #v[0x69, 0xc4, 0xe0, 0xd8, 0x6a, 0x7b, 0x04, 0x30, 0xd8, 0xcd, 0xb7,
        0x80, 0x70, 0xb4, 0xc5, 0x5a]) := by
  obtain ⟨ek, h1, h⟩ := C73_encrypt luckyLib_ok exHeap_ok 1 env #v[0x00, 0x01, 0x02, 0x03, 0x04, 0x05, 0x06, 0x07, 0x08,
    0x09, 0x0a, 0x0b, 0x0c, 0x0d, 0x0e, 0x0f] ek0 T0
  have : encrypt #v[0x00, 0x01, 0x02, 0x03, 0x04, 0x05, 0x06, 0x07, 0x08, 0x09, 0x0a, 0x0b, 0x0c, 0x0d, 0x0e, 0x0f]
      #v[0x00, 0x11, 0x22, 0x33, 0x44, 0x55, 0x66, 0x77, 0x88, 0x99, 0xaa, 0xbb, 0xcc, 0xdd, 0xee, 0xff] =
      #v[0x69, 0xc4, 0xe0, 0xd8, 0x6a, 0x7b, 0x04, 0x30, 0xd8, 0xcd, 0xb7, 0x80, 0x70, 0xb4, 0xc5, 0x5a] := by
    decide +kernel
  rcases h with ⟨-, h⟩ | ⟨T, ek', s', e, h⟩
  · exact absurd h luckyLib_not_unlucky
  · exact ⟨ek, T, ek', s', _, h1, e, by rw [h, this]⟩

end WB.m4ri
