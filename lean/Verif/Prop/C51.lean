import Verif.Proof.AESLoop
import Verif.Prop.Examples

/-!
# C51 — generating the AES tables again from the same expanded key (false in general)

`computeTables` permutes the first ten round keys inside the caller's array, so a second call starts from other round keys.
-/
namespace WB
open AES

/-- C51, full statement: after `expandKey`, any number `n ≥ 1` of calls of `computeTables` on the same key array leave
tables that encrypt with AES-128 under the key. -/
def C51_statement : Prop :=
  ∀ (env : Env) (key : State) (ek0 : Vector (BitVec 8) 176) (T0 : aes.Tables) (w : World) (n : Nat), 1 ≤ n →
    ∃ ek T ek' w', aes.expandKey key ek0 = .ok ek ∧
      aes.computeTablesLoop env (.current env) n T0 ek w = .ok ((T, ek'), w') ∧
      ∀ input output, aes.aes_128_table_encrypt env T input output = .ok (encrypt key input, encrypt key input)

/-- What the tables compute after `n + 1` calls: the cipher in which each of the round keys 0 to 9 has been permuted by
`n` applications of ShiftRows. -/
theorem C51_repeated_calls (env : Env) (key : State) (ek0 : Vector (BitVec 8) 176) (T0 : aes.Tables) (w : World)
    (n : Nat) :
    ∃ ek T ek' w', aes.expandKey key ek0 = .ok ek ∧
      aes.computeTablesLoop env (.current env) (n + 1) T0 ek w = .ok ((T, ek'), w') ∧
      ∀ input output, aes.aes_128_table_encrypt env T input output =
        let c := cipher (fun r => if r < 10 then shiftRows^[n] (roundKey key r) else roundKey key r) input
        .ok (c, c) := by
  obtain ⟨ek, hek, hk⟩ := aes.expandKey_keyOk key ek0
  obtain ⟨⟨⟨T, ek'⟩, w'⟩, h, -, ht⟩ := aes.computeTablesLoop_ok env (aes.libOk_current env) _ T0 ek hk (n + 1) w
  obtain ⟨M, N, ht⟩ := ht n rfl
  refine ⟨ek, T, ek', w', hek, h, fun i o => ?_⟩
  rw [aes.table_encrypt_eq env ht i o]
  have : aes.keySeq (roundKey key) n =
      fun r => if r < 10 then shiftRows^[n] (roundKey key r) else roundKey key r := by
    funext r
    have : ∀ (s : State) m, aes.shiftRowsN s m = shiftRows^[m] s := by
      intro s m
      induction m with
      | zero => rfl
      | succ m ih => rw [Function.iterate_succ_apply']; show shiftRows _ = _; rw [ih]
    unfold aes.keySeq
    rw [this]
  rw [this]

/-- C51 holds when the number of calls is 1 modulo 4, because ShiftRows has order 4. -/
theorem C51_repeated_calls_partial (env : Env) (key : State) (ek0 : Vector (BitVec 8) 176) (T0 : aes.Tables) (w : World)
    (n : Nat) (hn : n % 4 = 1) :
    ∃ ek T ek' w', aes.expandKey key ek0 = .ok ek ∧
      aes.computeTablesLoop env (.current env) n T0 ek w = .ok ((T, ek'), w') ∧
      ∀ input output, aes.aes_128_table_encrypt env T input output = .ok (encrypt key input, encrypt key input) := by
  obtain ⟨ek, hek, hk⟩ := aes.expandKey_keyOk key ek0
  obtain ⟨⟨⟨T, ek'⟩, w'⟩, h, -, ht⟩ := aes.computeTablesLoop_ok env (aes.libOk_current env) _ T0 ek hk n w
  obtain ⟨M, N, ht⟩ := ht (n - 1) (by omega)
  refine ⟨ek, T, ek', w', hek, h, fun i o => ?_⟩
  rw [aes.table_encrypt_eq env ht i o]
  have : aes.keySeq (roundKey key) (n - 1) = roundKey key := by
    funext r
    unfold aes.keySeq
    rw [show n - 1 = 4 * (n / 4) by omega, aes.shiftRowsN_four]
    exact ite_self _
  rw [this]
  rfl

set_option maxRecDepth 100000 in
theorem c51_witness : ∀ m : Fin 3,
    (cipher (fun r => if r < 10 then shiftRows^[m.val + 1] (roundKey (Vector.replicate 16 0) r)
      else roundKey (Vector.replicate 16 0) r) (Vector.replicate 16 0))[0] ≠ 0x66 := by
  decide +kernel

set_option maxRecDepth 100000 in
theorem c51_right : (encrypt (Vector.replicate 16 0) (Vector.replicate 16 0))[0] = 0x66 := by decide +kernel

/-- C51 fails for every number of calls that is not 1 modulo 4 (in particular for the 100000 calls of `main.c`), already
for the all-zero key used there: the tables encrypt the zero block to a wrong result. -/
theorem C51_other_calls_violated (env : Env) (ek0 : Vector (BitVec 8) 176) (T0 : aes.Tables) (w : World)
    (n : Nat) (h0 : 1 ≤ n) (hn : n % 4 ≠ 1) :
    ∃ ek T ek' w' c, aes.expandKey (Vector.replicate 16 0) ek0 = .ok ek ∧
      aes.computeTablesLoop env (.current env) n T0 ek w = .ok ((T, ek'), w') ∧
      (∀ output, aes.aes_128_table_encrypt env T (Vector.replicate 16 0) output = .ok (c, c)) ∧
      c ≠ encrypt (Vector.replicate 16 0) (Vector.replicate 16 0) := by
  obtain ⟨ek, hek, hk⟩ := aes.expandKey_keyOk (Vector.replicate 16 0) ek0
  obtain ⟨⟨⟨T, ek'⟩, w'⟩, h, -, ht⟩ := aes.computeTablesLoop_ok env (aes.libOk_current env) _ T0 ek hk n w
  obtain ⟨M, N, ht⟩ := ht (n - 1) (by omega)
  refine ⟨ek, T, ek', w', _, hek, h, fun o => aes.table_encrypt_eq env ht _ o, ?_⟩
  obtain ⟨m, hm⟩ : ∃ m : Fin 3, (n - 1) % 4 = m.val + 1 := ⟨⟨(n - 1) % 4 - 1, by omega⟩, by simp only []; omega⟩
  have : aes.keySeq (roundKey (Vector.replicate 16 0)) (n - 1) =
      fun r => if r < 10 then shiftRows^[m.val + 1] (roundKey (Vector.replicate 16 0) r)
        else roundKey (Vector.replicate 16 0) r := by
    funext r
    have : ∀ (s : State) m, aes.shiftRowsN s m = shiftRows^[m] s := by
      intro s m
      induction m with
      | zero => rfl
      | succ m ih => rw [Function.iterate_succ_apply']; show shiftRows _ = _; rw [ih]
    unfold aes.keySeq
    rw [aes.shiftRowsN_mod, hm, this]
  rw [this]
  intro e
  exact c51_witness m (by rw [e]; exact c51_right)

theorem C51_violated : ¬ C51_statement := by
  intro h
  have T0 : aes.Tables := ⟨Vector.replicate _ (Vector.replicate _ (Vector.replicate _ 0)),
    Vector.replicate _ (Vector.replicate _ 0), Vector.replicate _ (Vector.replicate _ (Vector.replicate _ 0)),
    Vector.replicate _ (Vector.replicate _ (Vector.replicate _ 0)),
    Vector.replicate _ (Vector.replicate _ (Vector.replicate _ 0)),
    Vector.replicate _ (Vector.replicate _ (Vector.replicate _ (Vector.replicate _ 0)))⟩
  obtain ⟨ek, T, ek', w', h1, h2, h3⟩ := h exEnv (Vector.replicate 16 0) (Vector.replicate 176 0) T0 exWorld 2 (by omega)
  obtain ⟨fk, S, fk', v', c, g1, g2, g3, g4⟩ := C51_other_calls_violated exEnv (Vector.replicate 176 0) T0 exWorld 2
    (by omega) (by omega)
  rw [h1] at g1; cases g1
  rw [h2] at g2; cases g2
  have := (h3 (Vector.replicate 16 0) (Vector.replicate 16 0)).symm.trans (g3 (Vector.replicate 16 0))
  rw [Except.ok.injEq, Prod.mk.injEq] at this
  exact g4 this.1.symm

/-- Five calls are harmless; the 100000 calls of `main.c` are not. -/
example : 5 % 4 = 1 ∧ 1 ≤ 100000 ∧ 100000 % 4 ≠ 1 := by decide

end WB
