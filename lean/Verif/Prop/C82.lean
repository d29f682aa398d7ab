import Verif.Prop.C74
import Verif.Prop.C81

/-!
# C82 — `main` of the NTL based AES demo ends with tables for the key (false)
-/
namespace WB.ntl
open AES

/-- C82, full statement: `main` with `TEST = n ≥ 1`, if it ends, ends with tables that encrypt with AES-128 under its key, which
is zero. -/
def C82_statement : Prop :=
  ∀ (stale : Nat → Nat → ZMod 2) (s : Rnd) (fuel : Nat) (env : Env) (n : Nat) (T : WB.aes.Tables), 1 ≤ n →
    aes.main stale fuel env n T s = .error .diverge ∨
    ∃ T' ek' s', aes.main stale fuel env n T s = .ok ((T', ek'), s') ∧ ∀ input output,
      WB.aes.aes_128_table_encrypt env T' input output =
        .ok (encrypt (Vector.replicate 16 0) input, encrypt (Vector.replicate 16 0) input)

variable (stale : Nat → Nat → ZMod 2) (fuel : Nat) (s : Rnd)

theorem main_eq (env : Env) (n : Nat) (T : WB.aes.Tables) {ek : Vector (BitVec 8) 176}
    (hek : WB.aes.expandKey (Vector.replicate 16 0#8) (env.junkArr 8 176) = .ok ek) :
    aes.main stale fuel env n T s = (forUp 0 n (T, ek) fun _ (T, ek) => aes.computeTables stale fuel env T ek) s := by
  rw [aes.main, NM_bind (liftC_run hek)]

/-- C82, what the tables compute after `main` with `TEST = n + 1`: the cipher in which each of the round keys 0 to 9 has been
permuted by `n` applications of ShiftRows. -/
theorem C82_main_tables (env : Env) (n : Nat) (T : WB.aes.Tables) :
    aes.main stale fuel env (n + 1) T s = .error .diverge ∨
    ∃ T' ek' s', aes.main stale fuel env (n + 1) T s = .ok ((T', ek'), s') ∧ ∀ input output,
      WB.aes.aes_128_table_encrypt env T' input output =
        let c := cipher (fun r => if r < 10 then shiftRows^[n] (roundKey (Vector.replicate 16 0) r)
          else roundKey (Vector.replicate 16 0) r) input
        .ok (c, c) := by
  obtain ⟨ek, hek, hk⟩ := WB.aes.expandKey_keyOk (Vector.replicate 16 0#8) (env.junkArr 8 176)
  rw [main_eq stale fuel s env (n + 1) T hek]
  rcases (aes.loop_gen stale fuel env _ T ek hk (n + 1)).run s with ⟨⟨T', ek'⟩, s', e, -, ht⟩ | h
  · obtain ⟨M, N, ht⟩ := ht n rfl
    refine .inr ⟨T', ek', s', e, fun i o => ?_⟩
    rw [WB.aes.table_encrypt_eq env ht i o, m4ri.keySeq_eq]
    rfl
  · exact .inl h

/-- C82: `main` can end, wherever the generator of random bits stands. -/
theorem C82_main_can_return (hf : 1 ≤ fuel) (env : Env) (n : Nat) (T : WB.aes.Tables) (p : Nat) :
    ∃ bits r s', aes.main stale fuel env n T ⟨bits, p⟩ = .ok (r, s') := by
  obtain ⟨ek, hek, hk⟩ := WB.aes.expandKey_keyOk (Vector.replicate 16 0#8) (env.junkArr 8 176)
  obtain ⟨bits, r, s', e, -⟩ := ((aes.loop_gen stale fuel env _ T ek hk n).can hf).exists_bits p
  exact ⟨bits, r, s', (main_eq stale fuel _ env n T hek).trans e⟩

/-- C82 holds when `TEST` is 1 modulo 4. -/
theorem C82_main_partial (env : Env) {n : Nat} (hn : n % 4 = 1) (T : WB.aes.Tables) :
    aes.main stale fuel env n T s = .error .diverge ∨
    ∃ T' ek' s', aes.main stale fuel env n T s = .ok ((T', ek'), s') ∧ ∀ input output,
      WB.aes.aes_128_table_encrypt env T' input output =
        .ok (encrypt (Vector.replicate 16 0) input, encrypt (Vector.replicate 16 0) input) := by
  have := C82_main_tables stale fuel s env (n - 1) T
  rw [show n - 1 + 1 = n by omega] at this
  refine this.imp_right ?_
  rintro ⟨T', ek', s', e, h⟩
  refine ⟨T', ek', s', e, fun i o => ?_⟩
  rw [h i o]
  have : (fun r => if r < 10 then shiftRows^[n - 1] (roundKey (Vector.replicate 16 0) r)
      else roundKey (Vector.replicate 16 0) r) = roundKey (Vector.replicate 16 0) := by
    funext r
    rw [← m4ri.iter_eq, show n - 1 = 4 * (n / 4) by omega, WB.aes.shiftRowsN_four]
    exact ite_self _
  rw [this]
  rfl

/-- C82 fails for every other `TEST` (in particular for the 100000 of `main.cpp`): if `main` returns, the tables encrypt the zero
block to a wrong result. -/
theorem C82_other_counts_violated (env : Env) {n : Nat} (h0 : 1 ≤ n) (hn : n % 4 ≠ 1) (T : WB.aes.Tables) :
    aes.main stale fuel env n T s = .error .diverge ∨
    ∃ T' ek' s' c, aes.main stale fuel env n T s = .ok ((T', ek'), s') ∧
      (∀ output, WB.aes.aes_128_table_encrypt env T' (Vector.replicate 16 0) output = .ok (c, c)) ∧
      c ≠ encrypt (Vector.replicate 16 0) (Vector.replicate 16 0) := by
  have := C82_main_tables stale fuel s env (n - 1) T
  rw [show n - 1 + 1 = n by omega] at this
  refine this.imp_right ?_
  rintro ⟨T', ek', s', e, h⟩
  refine ⟨T', ek', s', _, e, fun o => h _ o, ?_⟩
  obtain ⟨m, hm⟩ : ∃ m : Fin 3, (n - 1) % 4 = m.val + 1 := ⟨⟨(n - 1) % 4 - 1, by omega⟩, by simp only []; omega⟩
  have : (fun r => if r < 10 then shiftRows^[n - 1] (roundKey (Vector.replicate 16 0) r)
        else roundKey (Vector.replicate 16 0) r) =
      fun r => if r < 10 then shiftRows^[m.val + 1] (roundKey (Vector.replicate 16 0) r)
        else roundKey (Vector.replicate 16 0) r := by
    funext r
    rw [← m4ri.iter_eq, WB.aes.shiftRowsN_mod, hm, m4ri.iter_eq]
  rw [this]
  intro e
  exact c51_witness m (by rw [e]; exact c51_right)

theorem C82_violated : ¬ C82_statement := by
  intro h
  have T0 : WB.aes.Tables := ⟨Vector.replicate _ (Vector.replicate _ (Vector.replicate _ 0)),
    Vector.replicate _ (Vector.replicate _ 0), Vector.replicate _ (Vector.replicate _ (Vector.replicate _ 0)),
    Vector.replicate _ (Vector.replicate _ (Vector.replicate _ 0)),
    Vector.replicate _ (Vector.replicate _ (Vector.replicate _ 0)),
    Vector.replicate _ (Vector.replicate _ (Vector.replicate _ (Vector.replicate _ 0)))⟩
  obtain ⟨bits, r, s1, e1⟩ := C82_main_can_return (fun _ _ => 0) 1 (Nat.le_refl _) exEnv 100000 T0 0
  rcases h (fun _ _ => 0) ⟨bits, 0⟩ 1 exEnv 100000 T0 (by omega) with h | ⟨T, ek, s, e, h⟩
  · rw [e1] at h; cases h
  · rcases C82_other_counts_violated (fun _ _ => 0) 1 ⟨bits, 0⟩ exEnv (n := 100000) (by omega) (by omega) T0 with
      h | ⟨T', ek', s', c, e', h1, h2⟩
    · rw [e1] at h; cases h
    · rw [e] at e'; cases e'
      have := (h (Vector.replicate 16 0) (Vector.replicate 16 0)).symm.trans (h1 (Vector.replicate 16 0))
      rw [Except.ok.injEq, Prod.mk.injEq] at this
      exact h2 this.1.symm

/-- With suitable random bits `main` returns for 100001 rounds, and the tables are right. -/
example (env : Env) (T : WB.aes.Tables) : ∃ bits T' ek' s', aes.main stale 1 env 100001 T ⟨bits, 0⟩ = .ok ((T', ek'), s') ∧
    ∀ input output, WB.aes.aes_128_table_encrypt env T' input output =
      .ok (encrypt (Vector.replicate 16 0) input, encrypt (Vector.replicate 16 0) input) := by
  obtain ⟨bits, r, s1, e1⟩ := C82_main_can_return stale 1 (Nat.le_refl _) env 100001 T 0
  rcases C82_main_partial stale 1 ⟨bits, 0⟩ env (n := 100001) (by omega) T with h | ⟨T', ek', s', e, h⟩
  · rw [e1] at h; cases h
  · exact ⟨bits, T', ek', s', e, h⟩

end WB.ntl
