import Verif.Proof.SM4Bounds
import Verif.Prop.Examples

/-!
# C47 — the buffers `sm4_crypt_ecb` needs
-/
namespace WB
open SM4

/-- C47: a call of `sm4_crypt_ecb` with a positive `length` is free of out-of-bounds accesses exactly when
`16 ⌈length / 16⌉` bytes are accessible at `input` and at `output` — not `length` bytes.  Any context, mode, contents and
(even overlapping) positions. -/
theorem C47_sm4_ecb_needs_whole_blocks {W : Nat} (hW : 32 ≤ W) (env : Env) (ctx : sm4.sm4_context W)
    (mode length : Int) (hl : 0 < length) (N : Nat) (mem : Vector (BitVec 8) N) (input output : Nat) :
    ((∃ mem', sm4.sm4_crypt_ecb env ctx mode length mem input output = .ok mem') ↔
      input + 16 * ((length.toNat + 15) / 16) ≤ N ∧ output + 16 * ((length.toNat + 15) / 16) ≤ N) ∧
    ((∃ mem', sm4.sm4_crypt_ecb env ctx mode length mem input output = .ok mem') ∨
      sm4.sm4_crypt_ecb env ctx mode length mem input output = .error .oob) := by
  have hb : sm4.blocks length = (length.toNat + 15) / 16 := rfl
  rw [← hb]
  have h0 : 0 < sm4.blocks length := by rw [hb]; omega
  by_cases h : input + 16 * sm4.blocks length ≤ N ∧ output + 16 * sm4.blocks length ≤ N
  · obtain ⟨m, hm, -⟩ := sm4.ecb_some hW env ctx input output (sm4.blocks length) mem h.1 h.2
    exact ⟨⟨fun _ => h, fun _ => ⟨m, hm⟩⟩, Or.inl ⟨m, hm⟩⟩
  · have he := sm4.ecb_err hW env ctx mode length mem input output h0 (by omega)
    refine ⟨⟨?_, fun c => absurd c h⟩, Or.inr he⟩
    rintro ⟨m, hm⟩
    rw [he] at hm
    cases hm

/-- C47: in particular, processing a buffer of exactly `length` bytes in place runs past its end whenever `length` is
not a multiple of 16. -/
theorem C47_sm4_ecb_overruns {W : Nat} (hW : 32 ≤ W) (env : Env) (ctx : sm4.sm4_context W) (mode : Int) (n : Nat)
    (hn : n % 16 ≠ 0) (mem : Vector (BitVec 8) n) :
    sm4.sm4_crypt_ecb env ctx mode n mem 0 0 = .error .oob := by
  have h := C47_sm4_ecb_needs_whole_blocks hW env ctx mode n (by omega) n mem 0 0
  rcases h.2 with hm | he
  · have := (h.1.1 hm).1
    rw [Int.toNat_natCast] at this
    omega
  · exact he

example : sm4.sm4_crypt_ecb exEnv (⟨1, Vector.replicate 32 0#64⟩ : sm4.sm4_context 64) 1 20 (Vector.replicate 20 0) 0 0 =
    .error .oob := C47_sm4_ecb_overruns (by omega) exEnv _ 1 20 (by decide) _

end WB
