import Verif.Proof.SM4Modes
import Verif.Prop.Examples

/-!
# C46 — the direction recorded in the SM4 context (false for `sm4_setkey_dec`)
-/
namespace WB
open SM4

/-- C46, full statement: after `sm4_setkey_enc` the context records the mode `SM4_ENCRYPT` (1), after `sm4_setkey_dec` the
mode `SM4_DECRYPT` (0). -/
def C46_statement : Prop :=
  ∀ (W : Nat), 32 ≤ W → ∀ (env : Env) (key : Vector (BitVec 8) 16) (ctx0 : sm4.sm4_context W),
    (∃ ctx, sm4.sm4_setkey_enc env key ctx0 = .ok ctx ∧ ctx.mode = 1) ∧
    (∃ ctx, sm4.sm4_setkey_dec env key ctx0 = .ok ctx ∧ ctx.mode = 0)

/-- C46 is false: `sm4_setkey_dec` records `SM4_ENCRYPT` for every key. -/
theorem C46_setkey_dec_violated {W : Nat} (hW : 32 ≤ W) (env : Env) (key : Vector (BitVec 8) 16)
    (ctx0 : sm4.sm4_context W) :
    ∃ ctx, sm4.sm4_setkey_dec env key ctx0 = .ok ctx ∧ ctx.mode = 1 := by
  obtain ⟨ctx, h, hm, -⟩ := sm4.sm4_setkey_dec_ok hW env key ctx0
  exact ⟨ctx, h, hm⟩

theorem C46_violated : ¬ C46_statement := by
  intro h
  obtain ⟨ctx, h1, hm⟩ := (h 32 (by omega) exEnv (Vector.replicate 16 0) ⟨0, Vector.replicate 32 0⟩).2
  obtain ⟨ctx', h2, hm'⟩ := C46_setkey_dec_violated (W := 32) (by omega) exEnv (Vector.replicate 16 0)
    ⟨0, Vector.replicate 32 0⟩
  rw [h1] at h2
  cases h2
  rw [hm] at hm'
  exact absurd hm' (by decide)

theorem exists_ok_of_decide {α : Type} {x : C α} {q : α → Bool}
    (h : (match x with | .ok a => q a | .error _ => false) = true) : ∃ a, x = .ok a ∧ q a = true := by
  cases x with
  | ok a => exact ⟨a, rfl, h⟩
  | error e => cases h

/-- C46, visible consequence: passing the recorded mode to `sm4_crypt_cbc` does not decrypt.  One block of zeros,
encrypted with a zero key and `iv = 01 00 … 00`, is not recovered by a context from `sm4_setkey_dec`, the same `iv` and the
recorded mode; with the mode `SM4_DECRYPT` (0) it is. -/
theorem C46_cbc_with_recorded_mode_violated :
    let iv : Vector (BitVec 8) 16 := #v[1, 0, 0, 0, 0, 0, 0, 0, 0, 0, 0, 0, 0, 0, 0, 0]
    let zero : Vector (BitVec 8) 16 := Vector.replicate 16 0
    ∃ r, (do
      let ctx : sm4.sm4_context 32 ← sm4.sm4_setkey_enc exEnv zero ⟨0, Vector.replicate 32 0⟩
      let c ← sm4.sm4_crypt_cbc exEnv ctx ctx.mode 16 iv zero 0 0
      let ctx ← sm4.sm4_setkey_dec exEnv zero ctx
      let p ← sm4.sm4_crypt_cbc exEnv ctx ctx.mode 16 iv c.1 0 0
      let p' ← sm4.sm4_crypt_cbc exEnv ctx 0 16 iv c.1 0 0
      pure (p.1, p'.1)) = .ok r ∧ (r.1 != zero && r.2 == zero) = true := by
  intro iv zero
  refine exists_ok_of_decide ?_
  decide +kernel

/-- C46, the part that holds: `sm4_setkey_enc` records `SM4_ENCRYPT`. -/
theorem C46_setkey_enc_partial {W : Nat} (hW : 32 ≤ W) (env : Env) (key : Vector (BitVec 8) 16)
    (ctx0 : sm4.sm4_context W) :
    ∃ ctx, sm4.sm4_setkey_enc env key ctx0 = .ok ctx ∧ ctx.mode = 1 := by
  obtain ⟨ctx, h, hm, -⟩ := sm4.sm4_setkey_enc_ok hW env key ctx0
  exact ⟨ctx, h, hm⟩

end WB
