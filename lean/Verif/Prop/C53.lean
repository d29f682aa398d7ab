import Verif.Proof.AESKey
import Verif.Prop.Examples

/-!
# C53 — the random encodings of the white-box AES demo do not protect the key
-/
namespace WB
open AES

/-- C53: in every world, the row of zero entries of the first group of byte tables is the key, up to the two public and
invertible transformations SubBytes and ShiftRows. -/
theorem C53_tables_reveal_key (env : Env) (key : State) (ek0 : Vector (BitVec 8) 176) (T0 : aes.Tables) (w : World) :
    ∃ ek T ek' w', aes.expandKey key ek0 = .ok ek ∧
      aes.computeTables false env (.current env) T0 ek w = .ok ((T, ek'), w') ∧
      (Vector.ofFn fun j : Fin 16 => T.TBoxes[0][j][0]) = subBytes (shiftRows key) := by
  obtain ⟨ek, hek, hk⟩ := aes.expandKey_keyOk key ek0
  obtain ⟨⟨⟨T, ek'⟩, w'⟩, h, ⟨M, N, ht⟩, -⟩ := aes.computeTables_ok env (aes.libOk_current env) _ T0 ek hk w
  refine ⟨ek, T, ek', w', hek, h, ?_⟩
  apply aes.vec_ext
  intro x hx
  have := ht.box 0 x 0 (by omega) hx (by omega)
  rw [aes.ofFn_get _ hx, aes.sb_get _ hx]
  simp only [getElem!_pos, hx, show 0 < 10 by omega, show 0 < 256 by omega] at this
  simp only [Fin.getElem_fin, this, aes.bx]
  simp [roundKey]

/-- C53: the SubBytes and ShiftRows image of a key determines the key. -/
theorem C53_subBytes_shiftRows_injective (key key' : State)
    (h : subBytes (shiftRows key) = subBytes (shiftRows key')) : key = key' := by
  refine aes.shiftRows_inj fun i hi => aes.S_inj ?_
  rw [← aes.sb_get _ hi, ← aes.sb_get _ hi, h]

/-- C53: the byte tables do not depend on the random encodings: for one key, two runs in any two worlds and with any prior
contents of the arrays produce the same `TBoxes`. -/
theorem C53_TBoxes_not_randomised (env env' : Env) (key : State) (ek0 ek0' : Vector (BitVec 8) 176) (T0 T0' : aes.Tables)
    (w v : World) :
    ∃ ek ek' r r', aes.expandKey key ek0 = .ok ek ∧ aes.expandKey key ek0' = .ok ek' ∧
      aes.computeTables false env (.current env) T0 ek w = .ok r ∧
      aes.computeTables false env' (.current env') T0' ek' v = .ok r' ∧
      r.1.1.TBoxes = r'.1.1.TBoxes := by
  obtain ⟨ek, hek, hk⟩ := aes.expandKey_keyOk key ek0
  obtain ⟨ek', hek', hk'⟩ := aes.expandKey_keyOk key ek0'
  obtain ⟨⟨⟨T, e⟩, w'⟩, h, ⟨M, N, ht⟩, -⟩ := aes.computeTables_ok env (aes.libOk_current env) _ T0 ek hk w
  obtain ⟨⟨⟨T', e'⟩, v'⟩, h', ⟨M', N', ht'⟩, -⟩ := aes.computeTables_ok env' (aes.libOk_current env') _ T0' ek' hk' v
  refine ⟨ek, ek', _, _, hek, hek', h, h', ?_⟩
  have hv : ∀ {α : Type} [Inhabited α] {n : Nat} {a b : Vector α n}, (∀ x, x < n → a[x]! = b[x]!) → a = b := by
    intro α _ n a b hab
    apply Vector.ext
    intro i hi
    rw [← getElem!_pos a i hi, ← getElem!_pos b i hi, hab i hi]
  apply hv
  intro a ha
  apply hv
  intro b hb
  apply hv
  intro c hc
  exact (ht.box a b c ha hb hc).trans (ht'.box a b c ha hb hc).symm

/-- C53: the byte tables of the last round, which `aes_128_table_encrypt` uses, already determine the key: if two runs, for
whatever keys and in whatever worlds, produce the same `TBoxes[9]`, then the keys are equal. -/
theorem C53_last_round_determines_key (env env' : Env) (key key' : State) (ek0 ek0' ek ek' : Vector (BitVec 8) 176)
    (T0 T0' : aes.Tables) (w v : World) (r r' : (aes.Tables × Vector (BitVec 8) 176) × World)
    (he : aes.expandKey key ek0 = .ok ek) (he' : aes.expandKey key' ek0' = .ok ek')
    (hr : aes.computeTables false env (.current env) T0 ek w = .ok r)
    (hr' : aes.computeTables false env' (.current env') T0' ek' v = .ok r')
    (h : r.1.1.TBoxes[9] = r'.1.1.TBoxes[9]) : key = key' := by
  obtain ⟨ek1, hek, hk⟩ := aes.expandKey_keyOk key ek0
  obtain ⟨ek2, hek', hk'⟩ := aes.expandKey_keyOk key' ek0'
  obtain rfl := Except.ok.inj (hek.symm.trans he)
  obtain rfl := Except.ok.inj (hek'.symm.trans he')
  obtain ⟨⟨⟨T, e⟩, w'⟩, h1, ⟨M, N, ht⟩, -⟩ := aes.computeTables_ok env (aes.libOk_current env) _ T0 _ hk w
  obtain ⟨⟨⟨T', e'⟩, v'⟩, h2, ⟨M', N', ht'⟩, -⟩ := aes.computeTables_ok env' (aes.libOk_current env') _ T0' _ hk' v
  obtain rfl := Except.ok.inj (h1.symm.trans hr)
  obtain rfl := Except.ok.inj (h2.symm.trans hr')
  refine aes.roundKey_inj 9 (aes.shiftRows_inj fun i hi => ?_)
  refine (aes.keyed_inj (b := (roundKey key 10)[i]!) (b' := (roundKey key' 10)[i]!) fun x => ?_).1
  have a := ht.box 9 i x.toNat (by omega) hi x.isLt
  have b := ht'.box 9 i x.toNat (by omega) hi x.isLt
  have h3 : T.TBoxes[9]! = T'.TBoxes[9]! := by
    rw [getElem!_pos T.TBoxes 9 (by omega), getElem!_pos T'.TBoxes 9 (by omega)]
    exact h
  rw [h3, b, if_pos rfl] at a
  unfold aes.bx at a
  rw [aes.ofNat_toNat8] at a
  exact a.symm

/-- The first `n` rounds of `aes_128_table_encrypt` (`/repo/test/WBAES/WBMatrix/src/genTables.c:26-90`). -/
def tableRounds (env : Env) (T : aes.Tables) (n : Nat) (input : Vector (BitVec 8) 16) : C (Vector (BitVec 8) 16) :=
  forUp 0 n input fun i input => do
    let input ← aes.shiftRows env input 0
    forUp 0 4 input fun j input => aes.tableColumn T i j input

/-- `tableRounds` is what `aes_128_table_encrypt` begins with. -/
theorem tableRounds_prefix (env : Env) (T : aes.Tables) (input output : Vector (BitVec 8) 16) :
    aes.aes_128_table_encrypt env T input output = (do
      let input ← tableRounds env T 9 input
      let input ← aes.shiftRows env input 0
      let input ← forUp 0 16 input fun j input => do wr input j (← wbsm4.rd3 T.TBoxes 9 j (← rd input j).toNat)
      let output ← forUp 0 16 output fun i output => do wr output i (← rd input i)
      pure (input, output)) := rfl

/-- C53: the state between two table rounds is not encoded: after any number of rounds, in every world, `input` holds the
state of the cipher before the addition of the next round key. -/
theorem C53_states_in_the_clear (env : Env) (key : State) (ek0 : Vector (BitVec 8) 176) (T0 : aes.Tables) (w : World) :
    ∃ ek T ek' w', aes.expandKey key ek0 = .ok ek ∧
      aes.computeTables false env (.current env) T0 ek w = .ok ((T, ek'), w') ∧
      ∀ input n, n ≤ 9 → ∃ s, tableRounds env T n input = .ok s ∧
        addRoundKey s (roundKey key n) = rounds (roundKey key) input n := by
  obtain ⟨ek, hek, hk⟩ := aes.expandKey_keyOk key ek0
  obtain ⟨⟨⟨T, ek'⟩, w'⟩, h, ⟨M, N, ht⟩, -⟩ := aes.computeTables_ok env (aes.libOk_current env) _ T0 ek hk w
  exact ⟨ek, T, ek', w', hek, h, fun input n hn => ⟨_, aes.tableRounds_eq env ht input n hn, aes.ark_pre _ _ _⟩⟩

set_option maxRecDepth 100000 in
/-- The key of FIPS 197, appendix C.1, read off the tables. -/
example (ek0 : Vector (BitVec 8) 176) (T0 : aes.Tables) :
    ∃ ek T ek' w', aes.expandKey #v[0x00, 0x01, 0x02, 0x03, 0x04, 0x05, 0x06, 0x07, 0x08, 0x09, 0x0a, 0x0b, 0x0c, 0x0d,
        0x0e, 0x0f] ek0 = .ok ek ∧
      aes.computeTables false exEnv (.current exEnv) T0 ek exWorld = .ok ((T, ek'), w') ∧
      (Vector.ofFn fun j : Fin 16 => T.TBoxes[0][j][0]) = #v[0x63, 0x6b, 0x67, 0x76, 0xf2, 0x01, 0xab, 0x7b, 0x30, 0xd7,
        0x77, 0xc5, 0xfe, 0x7c, 0x6f, 0x2b] := by
  obtain ⟨ek, T, ek', w', h1, h2, h3⟩ := C53_tables_reveal_key exEnv #v[0x00, 0x01, 0x02, 0x03, 0x04, 0x05, 0x06, 0x07,
    0x08, 0x09, 0x0a, 0x0b, 0x0c, 0x0d, 0x0e, 0x0f] ek0 T0 exWorld
  refine ⟨ek, T, ek', w', h1, h2, h3.trans ?_⟩
  decide +kernel

/-- The hypotheses of the determination theorem are met by any two runs for one key. -/
example (ek0 : Vector (BitVec 8) 176) (T0 T0' : aes.Tables) : ∃ ek r r', aes.expandKey (Vector.replicate 16 7) ek0 = .ok ek ∧
    aes.computeTables false exEnv (.current exEnv) T0 ek exWorld = .ok r ∧
    aes.computeTables false exEnv (.current exEnv) T0' ek exWorld3 = .ok r' ∧ r.1.1.TBoxes[9] = r'.1.1.TBoxes[9] := by
  obtain ⟨ek, ek', r, r', h1, h2, h3, h4, h5⟩ := C53_TBoxes_not_randomised exEnv exEnv (Vector.replicate 16 7) ek0 ek0 T0 T0'
    exWorld exWorld3
  obtain rfl := Except.ok.inj (h1.symm.trans h2)
  exact ⟨ek, r, r', h1, h3, h4, by rw [h5]⟩

end WB
