import Verif.Model.OldLib
import Verif.Proof.OldRand
import Verif.Proof.WBSM4Gen
import Verif.Proof.AESGen

/-!
# The bundled library does what the demos need (helper lemmas)
-/
namespace WB
open Matrix

theorem old_genaffinepair32_ok (env : Env) (f0 g0 : Aff32) (w : World) :
    OkM (old.genaffinepairM32 env f0 g0) w (fun p _ => mat32 p.1.Mat * mat32 p.2.Mat = 1 ∧
      vec32 p.2.Vec = (mat32 p.2.Mat).mulVec (vec32 p.1.Vec)) := by
  obtain ⟨⟨⟨A, B⟩, w1⟩, h, hAB, -⟩ := genMatpairM32_ok env f0.Mat g0.Mat w
  obtain ⟨⟨v, w2⟩, r⟩ : ∃ p, old.randV32 env f0.Vec w1 = .ok p := ⟨_, old_randV32_run env f0.Vec w1⟩
  obtain ⟨u, hu, hv⟩ := MatMulVecM32_ok env B v g0.Vec
  refine ⟨((⟨A, v⟩, ⟨B, u⟩), w2), ?_, hAB, hv⟩
  unfold old.genaffinepairM32
  rw [old_genMatpair32_eq, CM_bind_run h]
  simp only
  rw [CM_bind_run r]
  exact CM_bind_run (liftC_run _ hu)

theorem wbsm4.libOk_bundled (env : Env) (he : env.endian = .little) : wbsm4.LibOk (.bundled env) where
  gen32 f g w := (old_genaffinepair32_ok env f g w).mono fun _ _ h => pair32_of h.1 h.2
  gen8 f g w := by
    show OkM (old.genaffinepairM8 env f g) w _
    rw [old_genaffinepair8_eq]
    exact (wbsm4.libOk_current env he).gen8 f g w
  com := (wbsm4.libOk_current env he).com
  mix f g m := by
    show Ok (old.affinemixM32 env f g m) _
    rw [old_affinemix32_eq]
    exact (wbsm4.libOk_current env he).mix f g m
  mul A B C0 := by
    show Ok (old.MatMulMatM32 env A B C0) _
    rw [old_MatMulMat32_eq]
    exact (wbsm4.libOk_current env he).mul A B C0
  u8 := (wbsm4.libOk_current env he).u8
  u32 := (wbsm4.libOk_current env he).u32
  xor := (wbsm4.libOk_current env he).xor

theorem aes.bundled_eq (env : Env) : aes.Lib.bundled env = .current env := by
  have h1 : old.genMatpairM32 env = genMatpairM32 env := funext fun _ => funext fun _ => old_genMatpair32_eq env _ _
  have h2 : old.genMatpairM8 env = genMatpairM8 env := funext fun _ => funext fun _ => old_genMatpair8_eq env _ _
  unfold aes.Lib.bundled aes.Lib.current
  rw [h1, h2]

end WB
