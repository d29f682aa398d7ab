import Verif.Prop.C51
import Verif.Prop.C73

/-!
# C74 — `main` of the M4RI based AES demo ends with tables for the key (false)
-/
namespace WB.m4ri
open AES

variable {lib : M4ri} {s : Heap}

/-- C74, full statement: `main` with `TEST = n ≥ 1` has defined behaviour (also with the rules of ISO C: `strict`) and, unless it is
still waiting for an invertible matrix, ends with tables that encrypt with AES-128 under its key, which is zero. -/
def C74_statement : Prop :=
  ∀ (lib : M4ri) (s : Heap) (strict : Bool) (fuel : Nat) (env : Env) (n : Nat) (T : WB.aes.Tables), lib.Ok → s.Ok → 1 ≤ n →
    (aes.main lib strict fuel env n T s = .error (.c .diverge) ∧ Unlucky lib fuel) ∨
    ∃ T' ek' s', aes.main lib strict fuel env n T s = .ok ((T', ek'), s') ∧ ∀ input output,
      WB.aes.aes_128_table_encrypt env T' input output =
        .ok (encrypt (Vector.replicate 16 0) input, encrypt (Vector.replicate 16 0) input)

theorem iter_eq (x : State) (m : Nat) : WB.aes.shiftRowsN x m = shiftRows^[m] x := by
  induction m with
  | zero => rfl
  | succ m ih => rw [Function.iterate_succ_apply']; show shiftRows _ = _; rw [ih]

theorem keySeq_eq (key : State) (n : Nat) : WB.aes.keySeq (roundKey key) n =
    fun r => if r < 10 then shiftRows^[n] (roundKey key r) else roundKey key r := by
  funext r
  unfold WB.aes.keySeq
  rw [iter_eq]

/-- C74, what the tables compute after `main` with `TEST = n + 1`: the cipher in which each of the round keys 0 to 9 has been
permuted by `n` applications of ShiftRows. -/
theorem C74_main_tables (hl : lib.Ok) (hs : s.Ok) (fuel : Nat) (env : Env) (n : Nat) (T : WB.aes.Tables) :
    (aes.main lib false fuel env (n + 1) T s = .error (.c .diverge) ∧ Unlucky lib fuel) ∨
    ∃ T' ek' s', aes.main lib false fuel env (n + 1) T s = .ok ((T', ek'), s') ∧ ∀ input output,
      WB.aes.aes_128_table_encrypt env T' input output =
        let c := cipher (fun r => if r < 10 then shiftRows^[n] (roundKey (Vector.replicate 16 0) r)
          else roundKey (Vector.replicate 16 0) r) input
        .ok (c, c) := by
  obtain ⟨ek, hek, hk⟩ := WB.aes.expandKey_keyOk (Vector.replicate 16 0#8) (env.junkArr 8 176)
  have hm : aes.main lib false fuel env (n + 1) T s =
      (forUp 0 (n + 1) (T, ek) fun _ (T, ek) => aes.computeTables lib false fuel env T ek) s := by
    rw [aes.main, MM_bind (liftC_run _ hek)]
  rw [hm]
  rcases aes.loop_run hl fuel env hs _ T ek hk (n + 1) with ⟨d, e⟩ | ⟨⟨T', ek'⟩, s', e, ⟨-, ht⟩, -⟩
  · exact .inl ⟨e, unlucky_of d⟩
  · obtain ⟨M, N, ht⟩ := ht n rfl
    refine .inr ⟨T', ek', s', e, fun i o => ?_⟩
    rw [WB.aes.table_encrypt_eq env ht i o, keySeq_eq]
    rfl

/-- C74 holds, with a compiler that keeps the low 32 bits of a shifted `int`, when `TEST` is 1 modulo 4. -/
theorem C74_main_partial (hl : lib.Ok) (hs : s.Ok) (fuel : Nat) (env : Env) {n : Nat} (hn : n % 4 = 1) (T : WB.aes.Tables) :
    (aes.main lib false fuel env n T s = .error (.c .diverge) ∧ Unlucky lib fuel) ∨
    ∃ T' ek' s', aes.main lib false fuel env n T s = .ok ((T', ek'), s') ∧ ∀ input output,
      WB.aes.aes_128_table_encrypt env T' input output =
        .ok (encrypt (Vector.replicate 16 0) input, encrypt (Vector.replicate 16 0) input) := by
  have := C74_main_tables hl hs fuel env (n - 1) T
  rw [show n - 1 + 1 = n by omega] at this
  refine this.imp_right ?_
  rintro ⟨T', ek', s', e, h⟩
  refine ⟨T', ek', s', e, fun i o => ?_⟩
  rw [h i o]
  have : (fun r => if r < 10 then shiftRows^[n - 1] (roundKey (Vector.replicate 16 0) r)
      else roundKey (Vector.replicate 16 0) r) = roundKey (Vector.replicate 16 0) := by
    funext r
    rw [← iter_eq, show n - 1 = 4 * (n / 4) by omega, WB.aes.shiftRowsN_four]
    exact ite_self _
  rw [this]
  rfl

/-- C74 fails for every other `TEST` (in particular for the 100000 of `main.c`): if `main` returns, the tables encrypt the zero
block to a wrong result. -/
theorem C74_other_counts_violated (hl : lib.Ok) (hs : s.Ok) (fuel : Nat) (env : Env) {n : Nat} (h0 : 1 ≤ n) (hn : n % 4 ≠ 1)
    (T : WB.aes.Tables) :
    (aes.main lib false fuel env n T s = .error (.c .diverge) ∧ Unlucky lib fuel) ∨
    ∃ T' ek' s' c, aes.main lib false fuel env n T s = .ok ((T', ek'), s') ∧
      (∀ output, WB.aes.aes_128_table_encrypt env T' (Vector.replicate 16 0) output = .ok (c, c)) ∧
      c ≠ encrypt (Vector.replicate 16 0) (Vector.replicate 16 0) := by
  have := C74_main_tables hl hs fuel env (n - 1) T
  rw [show n - 1 + 1 = n by omega] at this
  refine this.imp_right ?_
  rintro ⟨T', ek', s', e, h⟩
  refine ⟨T', ek', s', _, e, fun o => h _ o, ?_⟩
  obtain ⟨m, hm⟩ : ∃ m : Fin 3, (n - 1) % 4 = m.val + 1 := ⟨⟨(n - 1) % 4 - 1, by omega⟩, by simp only []; omega⟩
  have : (fun r => if r < 10 then shiftRows^[n - 1] (roundKey (Vector.replicate 16 0) r)
        else roundKey (Vector.replicate 16 0) r) =
      fun r => if r < 10 then shiftRows^[m.val + 1] (roundKey (Vector.replicate 16 0) r)
        else roundKey (Vector.replicate 16 0) r := by
    funext r
    rw [← iter_eq, WB.aes.shiftRowsN_mod, hm, iter_eq]
  rw [this]
  intro e
  exact c51_witness m (by rw [e]; exact c51_right)

/-- C74 fails with the rules of ISO C for every `TEST ≥ 1`, before any matrix is allocated. -/
theorem C74_iso_violated (fuel : Nat) (env : Env) {n : Nat} (h0 : 1 ≤ n) (T : WB.aes.Tables) :
    aes.main lib true fuel env n T s = .error (.c .overflow) := by
  obtain ⟨ek, hek, hk⟩ := WB.aes.expandKey_keyOk (Vector.replicate 16 0#8) (env.junkArr 8 176)
  rw [aes.main, MM_bind (liftC_run _ hek)]
  obtain ⟨k, rfl⟩ : ∃ k, n = k + 1 := ⟨n - 1, by omega⟩
  have : aes.computeTables lib true fuel env T ek s = .error (.c .overflow) := by
    rw [aes.computeTables, WB.aes.fillTyi_strict]
    rfl
  unfold forUp
  rw [Nat.sub_zero, List.range'_succ, List.foldlM_cons]
  exact MM_bind_err this

theorem C74_violated : ¬ C74_statement := by
  intro h
  have T0 : WB.aes.Tables := ⟨Vector.replicate _ (Vector.replicate _ (Vector.replicate _ 0)),
    Vector.replicate _ (Vector.replicate _ 0), Vector.replicate _ (Vector.replicate _ (Vector.replicate _ 0)),
    Vector.replicate _ (Vector.replicate _ (Vector.replicate _ 0)),
    Vector.replicate _ (Vector.replicate _ (Vector.replicate _ 0)),
    Vector.replicate _ (Vector.replicate _ (Vector.replicate _ (Vector.replicate _ 0)))⟩
  rcases h luckyLib exHeap false 1 exEnv 100000 T0 luckyLib_ok exHeap_ok (by omega) with ⟨-, h⟩ | ⟨T, ek, s, e, h⟩
  · exact luckyLib_not_unlucky h
  · rcases C74_other_counts_violated luckyLib_ok exHeap_ok 1 exEnv (n := 100000) (by omega) (by omega) T0 with
      ⟨-, h⟩ | ⟨T', ek', s', c, e', h1, h2⟩
    · exact luckyLib_not_unlucky h
    · rw [e] at e'; cases e'
      have := (h (Vector.replicate 16 0) (Vector.replicate 16 0)).symm.trans (h1 (Vector.replicate 16 0))
      rw [Except.ok.injEq, Prod.mk.injEq] at this
      exact h2 this.1.symm

/-- The hypotheses are met: with a library that satisfies the contract `main` returns for 100001 rounds, and the tables are right. -/
example (env : Env) (T : WB.aes.Tables) : ∃ T' ek' s', aes.main luckyLib false 1 env 100001 T exHeap = .ok ((T', ek'), s') ∧
    ∀ input output, WB.aes.aes_128_table_encrypt env T' input output =
      .ok (encrypt (Vector.replicate 16 0) input, encrypt (Vector.replicate 16 0) input) := by
  rcases C74_main_partial luckyLib_ok exHeap_ok 1 env (n := 100001) (by omega) T with ⟨-, h⟩ | h
  · exact absurd h luckyLib_not_unlucky
  · exact h

end WB.m4ri
