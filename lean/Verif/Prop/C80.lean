import Verif.Proof.WBSM4Ntl
import Verif.Prop.C45

/-!
# C80 — the NTL based SM4 demo computes SM4

As in C76, the generation may still be waiting for other random bits after `fuel` attempts per row or matrix.
-/
namespace WB.ntl
open SM4

variable (stale : Nat → Nat → ZMod 2) (fuel : Nat) (s : Rnd)

/-- C80: for every key, every prior contents of the global variables and of the table object, every sequence of random bits
and both byte orders: either `sm4_wb_gen_tables` is still drawing random bits, or it returns tables with which `sm4_wb_enc`
computes the SM4 encryption of every block under that key. -/
theorem C80_encrypt (env : Env) (key : Vector (BitVec 8) 16) (g : sm4.Globals) (ctx : sm4.Sm4Whitebox) :
    (∃ g' ctx' s', sm4.sm4_wb_gen_tables stale fuel env key g ctx s = .ok ((g', ctx'), s') ∧
      ∀ IN OUT, ∃ out, sm4.sm4_wb_enc IN OUT ctx' = .ok out ∧
        load (bytes out) 0 = encrypt (load (bytes key) 0) (load (bytes IN) 0)) ∨
    sm4.sm4_wb_gen_tables stale fuel env key g ctx s = .error .diverge := by
  rcases (sm4.gen_tables_gen stale fuel env key g ctx).run s with ⟨⟨g', ctx'⟩, s', e, wg, w, ht, hc⟩ | h
  · exact .inl ⟨g', ctx', s', e, fun IN OUT => sm4.enc_run ht hc IN OUT⟩
  · exact .inr h

/-- C80: wherever the generator of random bits stands, it can deliver bits with which the generation returns, already with
one attempt per row and matrix. -/
theorem C80_generation_can_return (hf : 1 ≤ fuel) (env : Env) (key : Vector (BitVec 8) 16) (g : sm4.Globals)
    (ctx : sm4.Sm4Whitebox) (p : Nat) :
    ∃ bits r s', sm4.sm4_wb_gen_tables stale fuel env key g ctx ⟨bits, p⟩ = .ok (r, s') := by
  obtain ⟨bits, r, s', e, -⟩ := ((sm4.gen_tables_gen stale fuel env key g ctx).can hf).exists_bits p
  exact ⟨bits, r, s', e⟩

/-- C80: the demo with NTL and the demo with WBMatrix produce the same ciphertexts: tables generated by the two programs for
one key encrypt every block to the same bytes. -/
theorem C80_same_as_WBMatrix (env : Env) (he : env.endian = .little) (key : Vector (BitVec 8) 16) {g g' : sm4.Globals}
    {ctx ctx' : sm4.Sm4Whitebox} {s' : Rnd}
    (h : sm4.sm4_wb_gen_tables stale fuel env key g ctx s = .ok ((g', ctx'), s')) (wg : wbsm4.Globals)
    (wctx : wbsm4.Sm4Whitebox) (w : World) :
    ∃ r, wbsm4.sm4_wb_gen_tables 64 env (.current env) key wg wctx w = .ok r ∧ ∀ IN OUT OUT', ∃ out,
      sm4.sm4_wb_enc IN OUT ctx' = .ok out ∧ wbsm4.sm4_wb_enc (.current env) IN OUT' r.1.2 = .ok out := by
  obtain ⟨g1, c1, w1, h1, hh1⟩ := C45_wbsm4_encrypt (W := 64) (by omega) env he key wg wctx w
  refine ⟨_, h1, ?_⟩
  intro IN OUT OUT'
  rcases C80_encrypt stale fuel s env key g ctx with ⟨g2, c2, s2, e, hh⟩ | e
  · rw [h] at e
    cases e
    obtain ⟨o, eo, ho⟩ := hh IN OUT
    obtain ⟨o', eo', ho'⟩ := hh1 IN OUT'
    refine ⟨o, eo, ?_⟩
    rw [eo']
    congr 1
    refine WB.sm4.bytes_ext.1 ?_
    intro j
    by_cases hj : j < 16
    · have a := WB.sm4.byte_load (bytes o) 0 j hj
      have a' := WB.sm4.byte_load (bytes o') 0 j hj
      rw [Nat.zero_add] at a a'
      rw [← a, ← a', ho, ho']
    · rw [WB.sm4.bytes_ge o (by omega), WB.sm4.bytes_ge o' (by omega)]
  · rw [h] at e; cases e

/-- The run of the program `main` with `TEST = n`: `n` times tables are generated, then the block 00 01 ... 0f is encrypted
`n` times with the last tables.  The output is the SM4 encryption of that block under the key 0. -/
theorem C80_main (env : Env) {n : Nat} (hn : 0 < n) (g : sm4.Globals) (ctx : sm4.Sm4Whitebox) (OUT : Vector (BitVec 8) 16) :
    (∃ g' ctx' OUT' s', sm4.main stale fuel env n g ctx OUT s = .ok ((g', ctx', OUT'), s') ∧
      load (bytes OUT') 0 = encrypt ⟨0, 0, 0, 0⟩ ⟨0x00010203, 0x04050607, 0x08090a0b, 0x0c0d0e0f⟩) ∨
    sm4.main stale fuel env n g ctx OUT s = .error .diverge := by
  rcases (sm4.main_gen stale fuel env n g ctx OUT).run s with ⟨⟨g', ctx', o⟩, s', e, h⟩ | h
  · refine .inl ⟨g', ctx', o, s', e, (h hn).trans ?_⟩
    have h1 : load (bytes m4ri.sm4.mainKey) 0 = ⟨0, 0, 0, 0⟩ := by decide +kernel
    have h2 : load (bytes m4ri.sm4.mainIN) 0 = ⟨0x00010203, 0x04050607, 0x08090a0b, 0x0c0d0e0f⟩ := by decide +kernel
    rw [h1, h2]
    rfl
  · exact .inr h

/-! ## A concrete case -/

/-- With suitable random bits the standard's test vector comes out. -/
example (env : Env) (g : sm4.Globals) (ctx : sm4.Sm4Whitebox) (OUT : Vector (BitVec 8) 16) :
    let v : Vector (BitVec 8) 16 := #v[0x01, 0x23, 0x45, 0x67, 0x89, 0xab, 0xcd, 0xef, 0xfe, 0xdc, 0xba, 0x98, 0x76, 0x54, 0x32, 0x10]
    ∃ bits r s', sm4.sm4_wb_gen_tables stale 1 env v g ctx ⟨bits, 0⟩ = .ok (r, s') ∧
      ∃ out, sm4.sm4_wb_enc v OUT r.2 = .ok out ∧
        load (bytes out) 0 = ⟨0x681edf34, 0xd206965e, 0x86b3e94f, 0x536e4246⟩ := by
  intro v
  obtain ⟨bits, r, s', e⟩ := C80_generation_can_return stale 1 (Nat.le_refl _) env v g ctx 0
  refine ⟨bits, r, s', e, ?_⟩
  rcases C80_encrypt stale 1 ⟨bits, 0⟩ env v g ctx with ⟨g', ctx', s2, e2, h⟩ | e2
  · rw [e] at e2
    cases e2
    obtain ⟨out, e3, h3⟩ := h v OUT
    refine ⟨out, e3, h3.trans ?_⟩
    decide +kernel
  · rw [e] at e2; cases e2

/-- With suitable random bits the program itself ends. -/
example (env : Env) (g : sm4.Globals) (ctx : sm4.Sm4Whitebox) (OUT : Vector (BitVec 8) 16) :
    ∃ bits r s', sm4.main stale 1 env 100000 g ctx OUT ⟨bits, 0⟩ = .ok (r, s') := by
  obtain ⟨bits, r, s', e, -⟩ := ((sm4.main_gen stale 1 env 100000 g ctx OUT).can (Nat.le_refl _)).exists_bits 0
  exact ⟨bits, r, s', e⟩

end WB.ntl
