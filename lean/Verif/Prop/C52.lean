import Verif.Proof.AESLoop
import Verif.Prop.Examples

/-!
# C52 — `computeTables` has defined behaviour in ISO C (false)
-/
namespace WB

/-- C52, full statement: under the rules of ISO C, where a left shift of an `int` whose mathematical result does not fit is
undefined, `computeTables` runs without undefined behaviour. -/
def C52_statement : Prop :=
  ∀ (env : Env) (T : aes.Tables) (ek : Vector (BitVec 8) 176) (w : World),
    ∃ r, aes.computeTables true env (.current env) T ek w = .ok r

/-- C52 fails for every input: `computeTables` always reaches such a shift (`gMul(2, 64) << 24`). -/
theorem C52_computeTables_violated (env : Env) (T : aes.Tables) (ek : Vector (BitVec 8) 176) (w : World) :
    aes.computeTables true env (.current env) T ek w = .error .overflow :=
  aes.computeTables_strict env _ T ek w

theorem C52_violated : ¬ C52_statement := by
  intro h
  have T0 : aes.Tables := ⟨Vector.replicate _ (Vector.replicate _ (Vector.replicate _ 0)),
    Vector.replicate _ (Vector.replicate _ 0), Vector.replicate _ (Vector.replicate _ (Vector.replicate _ 0)),
    Vector.replicate _ (Vector.replicate _ (Vector.replicate _ 0)),
    Vector.replicate _ (Vector.replicate _ (Vector.replicate _ 0)),
    Vector.replicate _ (Vector.replicate _ (Vector.replicate _ (Vector.replicate _ 0)))⟩
  obtain ⟨r, hr⟩ := h exEnv T0 (Vector.replicate _ 0) exWorld
  rw [C52_computeTables_violated] at hr
  cases hr

/-- C52 with shifts that wrap, as gcc documents: then `computeTables` never faults, whatever is in the key array (every
access in range, no other undefined operation). -/
theorem C52_computeTables_partial (env : Env) (T : aes.Tables) (ek : Vector (BitVec 8) 176) (w : World) :
    ∃ r, aes.computeTables false env (.current env) T ek w = .ok r := by
  obtain ⟨r, h, -⟩ := aes.computeTables_ok env (aes.libOk_current env) (fun r => aes.blk ek (16 * r)) T ek (fun _ _ => rfl) w
  exact ⟨r, h⟩

/-- The shift in question, in both readings. -/
example : aes.shlInt true 128 24 = .error .overflow ∧ aes.shlInt false 128 24 = .ok 0x80000000 := by decide

end WB
