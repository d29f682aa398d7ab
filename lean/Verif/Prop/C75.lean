import Verif.Prop.C73

/-!
# C75 — the memory of the M4RI based AES demo
-/
namespace WB.m4ri
open AES

variable {lib : M4ri} {s s' : Heap}

/-- C75, full statement: a call of `computeTables` that returns leaves as many matrices on the heap as there were before. -/
def C75_statement : Prop :=
  ∀ (lib : M4ri) (s s' : Heap) (fuel : Nat) (env : Env) (T T' : WB.aes.Tables) (ek ek' : Vector (BitVec 8) 176), lib.Ok → s.Ok →
    aes.computeTables lib false fuel env T ek s = .ok ((T', ek'), s') → s'.live = s.live

/-- C75 violated: every call of `computeTables` that returns leaves 275456 matrices more on the heap than before, although it stores
no address in any variable of the program; every matrix that was there before is still there and unchanged; nothing is
printed. -/
theorem C75_computeTables_violated (hl : lib.Ok) (hs : s.Ok) {fuel : Nat} {env : Env} {T T' : WB.aes.Tables}
    {ek ek' : Vector (BitVec 8) 176} (h : aes.computeTables lib false fuel env T ek s = .ok ((T', ek'), s')) :
    s'.live = s.live + 275456 ∧ Keeps s s' ∧ s'.out = s.out ∧ s'.Ok := by
  have hk : WB.aes.KeyOk (fun r => WB.aes.blk ek (16 * r)) ek := fun _ _ => rfl
  rcases aes.computeTables_run hl fuel env hs _ T ek hk with ⟨-, e⟩ | ⟨r, s1, e, -, x⟩
  · rw [h] at e; cases e
  · rw [h] at e
    cases e
    exact ⟨by have := x.live; simpa using this, fun p m hp => (x.keep p m hp (by simp)).1, x.out, x.own.ok⟩

/-- C75 violated: `main` with `TEST = n` leaves `275456 n` matrices. -/
theorem C75_main_violated (hl : lib.Ok) (hs : s.Ok) {fuel : Nat} {env : Env} {n : Nat} {T T' : WB.aes.Tables}
    {ek' : Vector (BitVec 8) 176} (h : aes.main lib false fuel env n T s = .ok ((T', ek'), s')) :
    s'.live = s.live + 275456 * n ∧ Keeps s s' ∧ s'.out = s.out ∧ s'.Ok := by
  obtain ⟨ek, hek, hk⟩ := WB.aes.expandKey_keyOk (Vector.replicate 16 0#8) (env.junkArr 8 176)
  have hm : aes.main lib false fuel env n T s =
      (forUp 0 n (T, ek) fun _ (T, ek) => aes.computeTables lib false fuel env T ek) s := by
    rw [aes.main, MM_bind (liftC_run _ hek)]
  rw [hm] at h
  rcases aes.loop_run hl fuel env hs _ T ek hk n with ⟨-, e⟩ | ⟨r, s1, e, -, x⟩
  · rw [h] at e; cases e
  · rw [h] at e
    cases e
    exact ⟨by have := x.live; simpa using this, fun p m hp => (x.keep p m hp (by simp)).1, x.out, x.own.ok⟩

theorem C75_violated : ¬ C75_statement := by
  intro h
  have T0 : WB.aes.Tables := ⟨Vector.replicate _ (Vector.replicate _ (Vector.replicate _ 0)),
    Vector.replicate _ (Vector.replicate _ 0), Vector.replicate _ (Vector.replicate _ (Vector.replicate _ 0)),
    Vector.replicate _ (Vector.replicate _ (Vector.replicate _ 0)),
    Vector.replicate _ (Vector.replicate _ (Vector.replicate _ 0)),
    Vector.replicate _ (Vector.replicate _ (Vector.replicate _ (Vector.replicate _ 0)))⟩
  obtain ⟨ek, -, h1⟩ := C73_encrypt luckyLib_ok exHeap_ok 1 exEnv (Vector.replicate 16 0) (Vector.replicate 176 0) T0
  rcases h1 with ⟨-, h1⟩ | ⟨T, ek', s', e, -⟩
  · exact luckyLib_not_unlucky h1
  · have h2 := h _ _ _ _ _ _ _ _ _ luckyLib_ok exHeap_ok e
    have h3 := (C75_computeTables_violated luckyLib_ok exHeap_ok e).1
    omega

/-- With a library that satisfies the contract `main` returns for its 100000 rounds, with 27545600000 more matrices. -/
example (env : Env) (T : WB.aes.Tables) : ∃ T' ek' s', aes.main luckyLib false 1 env 100000 T exHeap = .ok ((T', ek'), s') ∧
    s'.live = exHeap.live + 27545600000 := by
  obtain ⟨ek, hek, hk⟩ := WB.aes.expandKey_keyOk (Vector.replicate 16 0#8) (env.junkArr 8 176)
  rcases aes.loop_run luckyLib_ok 1 env exHeap_ok _ T ek hk 100000 with ⟨d, -⟩ | ⟨⟨T', ek'⟩, s', e, -⟩
  · exact absurd (unlucky_of d) luckyLib_not_unlucky
  · have e : aes.main luckyLib false 1 env 100000 T exHeap = .ok ((T', ek'), s') := by
      rw [aes.main, MM_bind (liftC_run _ hek)]
      exact e
    exact ⟨T', ek', s', e, (C75_main_violated luckyLib_ok exHeap_ok e).1⟩

end WB.m4ri
