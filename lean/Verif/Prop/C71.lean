import Verif.Proof.WBSM4M4ri
import Verif.Prop.C45

/-!
# C71 — the M4RI based SM4 demo computes SM4
-/
namespace WB.m4ri
open SM4

variable {lib : M4ri} {s s' : Heap}

/-- For one of the sizes 8 and 32 there are `fuel` successive draws without an invertible matrix. -/
def Unlucky (lib : M4ri) (fuel : Nat) : Prop :=
  ∃ n, (n = 8 ∨ n = 32) ∧ ∃ j, ∀ i < fuel, ¬ IsUnit (bitMat n n (lib.rnd (j + i)))

/-- Every matrix of `s` is still there in `s'`. -/
def Keeps (s s' : Heap) : Prop := ∀ p m, s.obj p = some m → s'.obj p = some m

theorem unlucky_of {fuel : Nat} (h : ¬ sm4.Lucky2 lib fuel) : Unlucky lib fuel := by
  unfold sm4.Lucky2 Lucky at h
  rw [not_and_or] at h
  rcases h with h | h
  · push Not at h
    obtain ⟨j, hj⟩ := h
    exact ⟨8, .inl rfl, j, hj⟩
  · push Not at h
    obtain ⟨j, hj⟩ := h
    exact ⟨32, .inr rfl, j, hj⟩

theorem keeps_a32 (h : Keeps s s') {a : AffineTransform} {f : Aff32} (ha : A32 s ∅ a f) : A32 s' ∅ a f := by
  obtain ⟨⟨⟨m, hm, hA⟩, h1⟩, ⟨⟨m', hm', hA'⟩, h2⟩⟩ := ha
  exact ⟨⟨⟨m, h _ _ hm, hA⟩, h1⟩, ⟨⟨m', h _ _ hm', hA'⟩, h2⟩⟩

theorem keeps_ctx (h : Keeps s s') {ctx : sm4.Sm4Whitebox} {w : wbsm4.Sm4Whitebox} (hc : sm4.Ctx s ctx w) :
    sm4.Ctx s' ctx w :=
  ⟨fun i j hi hj => keeps_a32 h (hc.M i j hi hj), fun i hi => keeps_a32 h (hc.C i hi),
    fun i hi => keeps_a32 h (hc.D i hi), fun i hi => keeps_a32 h (hc.SE i hi), fun i hi => keeps_a32 h (hc.FE i hi), hc.Table⟩

/-- C71: for every key, every prior contents of the global variables and of the table object, every state of the heap, every
sequence of random bits and both byte orders: either `sm4_wb_gen_tables` does not return within `fuel` draws per matrix
because of the random bits, or it returns tables with which `sm4_wb_enc` computes the SM4 encryption of every block under
that key, as long as the matrices are there; the heap is then as before. -/
theorem C71_encrypt (hl : lib.Ok) (hs : s.Ok) (fuel : Nat) (env : Env) (key : Vector (BitVec 8) 16) (g : sm4.Globals)
    (ctx : sm4.Sm4Whitebox) :
    (sm4.sm4_wb_gen_tables lib fuel env key g ctx s = .error (.c .diverge) ∧ Unlucky lib fuel) ∨
    ∃ g' ctx' s', sm4.sm4_wb_gen_tables lib fuel env key g ctx s = .ok ((g', ctx'), s') ∧ s'.Ok ∧
      ∀ s₂, s₂.Ok → Keeps s' s₂ → ∀ IN OUT, ∃ out,
        sm4.sm4_wb_enc lib IN OUT ctx' s₂ = .ok (out, { s₂ with next := s₂.next + 504 }) ∧
        load (bytes out) 0 = encrypt (load (bytes key) 0) (load (bytes IN) 0) := by
  rcases sm4.gen_tables_run hl fuel (Own.empty hs) env key g ctx with ⟨d, e⟩ | ⟨⟨g', ctx'⟩, s', e, x, wg, w, ht, hc⟩
  · exact .inl ⟨e, unlucky_of d⟩
  · refine .inr ⟨g', ctx', s', e, x.own.ok, ?_⟩
    intro s₂ h₂ hk IN OUT
    obtain ⟨o, eo, ho⟩ := sm4.enc_run hl h₂ ht (keeps_ctx hk hc) IN OUT
    exact ⟨o, eo, ho⟩

/-- C71: the demo with M4RI and the demo with WBMatrix produce the same ciphertexts: tables generated by the two programs for
one key encrypt every block to the same bytes. -/
theorem C71_same_as_WBMatrix (hl : lib.Ok) (hs : s.Ok) {fuel : Nat} (env : Env) (he : env.endian = .little)
    (key : Vector (BitVec 8) 16) {g g' : sm4.Globals} {ctx ctx' : sm4.Sm4Whitebox}
    (h : sm4.sm4_wb_gen_tables lib fuel env key g ctx s = .ok ((g', ctx'), s')) (wg : wbsm4.Globals)
    (wctx : wbsm4.Sm4Whitebox) (w : World) :
    ∃ r, wbsm4.sm4_wb_gen_tables 64 env (.current env) key wg wctx w = .ok r ∧ ∀ IN OUT OUT', ∃ out s₂,
      sm4.sm4_wb_enc lib IN OUT ctx' s' = .ok (out, s₂) ∧ wbsm4.sm4_wb_enc (.current env) IN OUT' r.1.2 = .ok out := by
  obtain ⟨g1, c1, w1, h1, hh1⟩ := C45_wbsm4_encrypt (W := 64) (by omega) env he key wg wctx w
  refine ⟨_, h1, ?_⟩
  intro IN OUT OUT'
  rcases C71_encrypt hl hs fuel env key g ctx with ⟨e, -⟩ | ⟨g2, c2, s2, e, ok, hh⟩
  · rw [h] at e; cases e
  · rw [h] at e
    cases e
    obtain ⟨o, eo, ho⟩ := hh s' ok (fun _ _ h => h) IN OUT
    obtain ⟨o', eo', ho'⟩ := hh1 IN OUT'
    refine ⟨o, _, eo, ?_⟩
    rw [eo']
    congr 1
    refine sm4.bytes_ext.1 ?_
    intro j
    by_cases hj : j < 16
    · have a := sm4.byte_load (bytes o) 0 j hj
      have a' := sm4.byte_load (bytes o') 0 j hj
      rw [Nat.zero_add] at a a'
      rw [← a, ← a', ho, ho']
    · rw [sm4.bytes_ge o (by omega), sm4.bytes_ge o' (by omega)]

/-- The run of the program `main` with `TEST = n`: `n` times tables are generated, then the block 00 01 ... 0f is encrypted
`n` times with the last tables.  The output is the SM4 encryption of that block under the key 0. -/
theorem C71_main (hl : lib.Ok) (hs : s.Ok) (fuel : Nat) (env : Env) {n : Nat} (hn : 0 < n) (g : sm4.Globals)
    (ctx : sm4.Sm4Whitebox) (OUT : Vector (BitVec 8) 16) :
    (sm4.main lib fuel env n g ctx OUT s = .error (.c .diverge) ∧ Unlucky lib fuel) ∨
    ∃ g' ctx' OUT' s', sm4.main lib fuel env n g ctx OUT s = .ok ((g', ctx', OUT'), s') ∧
      load (bytes OUT') 0 = encrypt ⟨0, 0, 0, 0⟩ ⟨0x00010203, 0x04050607, 0x08090a0b, 0x0c0d0e0f⟩ := by
  rcases sm4.main_run hl fuel (Own.empty hs) env n g ctx OUT with ⟨d, e⟩ | ⟨⟨g', ctx', o⟩, s', e, -, h⟩
  · exact .inl ⟨e, unlucky_of d⟩
  · refine .inr ⟨g', ctx', o, s', e, (h hn).trans ?_⟩
    have h1 : load (bytes sm4.mainKey) 0 = ⟨0, 0, 0, 0⟩ := by decide +kernel
    have h2 : load (bytes sm4.mainIN) 0 = ⟨0x00010203, 0x04050607, 0x08090a0b, 0x0c0d0e0f⟩ := by decide +kernel
    rw [h1, h2]
    rfl

/-! ## A concrete case -/

theorem luckyLib_unit (n k : Nat) : IsUnit (bitMat n n (luckyLib.rnd k)) := by
  rw [Matrix.isUnit_iff_isUnit_det, Matrix.det_of_upperTriangular]
  · rw [Finset.prod_eq_one]
    · exact isUnit_one
    · intro i _
      show bitF (decide (i.val ≤ i.val)) = 1
      simp [bitF]
  · intro i j hij
    have : j < i := hij
    show bitF (decide (i.val ≤ j.val)) = 0
    rw [decide_eq_false (by omega)]
    rfl

theorem luckyLib_not_unlucky : ¬ Unlucky luckyLib 1 := by
  rintro ⟨n, -, j, h⟩
  exact h 0 Nat.one_pos (luckyLib_unit n _)

/-- With a library that satisfies the contract the functions return; the standard's test vector comes out. -/
example (env : Env) (g : sm4.Globals) (ctx : sm4.Sm4Whitebox) (OUT : Vector (BitVec 8) 16) :
    let v : Vector (BitVec 8) 16 := #v[0x01, 0x23, 0x45, 0x67, 0x89, 0xab, 0xcd, 0xef, 0xfe, 0xdc, 0xba, 0x98, 0x76, 0x54, 0x32, 0x10]
    ∃ r, sm4.sm4_wb_gen_tables luckyLib 1 env v g ctx exHeap = .ok r ∧
      ∃ out s', sm4.sm4_wb_enc luckyLib v OUT r.1.2 r.2 = .ok (out, s') ∧
        load (bytes out) 0 = ⟨0x681edf34, 0xd206965e, 0x86b3e94f, 0x536e4246⟩ := by
  intro v
  rcases C71_encrypt luckyLib_ok exHeap_ok 1 env v g ctx with ⟨-, h⟩ | ⟨g', ctx', s', e, ok, h⟩
  · exact absurd h luckyLib_not_unlucky
  · obtain ⟨out, e2, h2⟩ := h s' ok (fun _ _ h => h) v OUT
    refine ⟨_, e, out, _, e2, h2.trans ?_⟩
    decide +kernel

/-- `main` returns with that library. -/
example (env : Env) (g : sm4.Globals) (ctx : sm4.Sm4Whitebox) (OUT : Vector (BitVec 8) 16) :
    ∃ r, sm4.main luckyLib 1 env 100000 g ctx OUT exHeap = .ok r := by
  rcases C71_main luckyLib_ok exHeap_ok 1 env (n := 100000) (by omega) g ctx OUT with ⟨-, h⟩ | ⟨_, _, _, _, e, -⟩
  · exact absurd h luckyLib_not_unlucky
  · exact ⟨_, e⟩

end WB.m4ri
