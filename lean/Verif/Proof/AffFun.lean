import Mathlib.LinearAlgebra.Matrix.ToLin
import Mathlib.Algebra.Module.ZMod
import Verif.Proof.Affine
import Verif.Proof.Com
import Verif.Prop.C20
import Verif.SpecSM4

/-!
# Affine functions on machine words (helper lemmas)
-/
namespace WB
open Matrix

/-- The word denoting a vector. -/
def unvec {w : Nat} (v : Fin w → ZMod 2) : BitVec w :=
  (BitVec.ofBoolListLE (List.ofFn fun i : Fin w => decide (v i.rev = 1))).cast (by simp)

theorem vec_unvec {w : Nat} (v : Fin w → ZMod 2) : vecOf w (bitS w) (unvec v) = v := by
  funext j
  unfold vecOf unvec bitS
  have h : w - 1 - (j : Nat) < w := by omega
  have e : (⟨w - 1 - (j : Nat), h⟩ : Fin w).rev = j := by
    apply Fin.ext; simp [Fin.rev]; omega
  simp only [BitVec.getLsbD_cast, BitVec.getLsbD_ofBoolListLE, List.getD_eq_getElem?_getD, List.getElem?_ofFn, h,
    dif_pos, Option.getD_some, e]
  have : ∀ a : ZMod 2, bitF (decide (a = 1)) = a := by decide
  exact this _

theorem unvec_vec {w : Nat} (x : BitVec w) : unvec (vecOf w (bitS w) x) = x :=
  vecS_inj (vec_unvec _)

theorem unvec_add {w : Nat} (u v : Fin w → ZMod 2) : unvec (u + v) = unvec u ^^^ unvec v := by
  apply vecS_inj
  rw [vec_add, vec_unvec, vec_unvec, vec_unvec]

/-- The linear function on words given by a matrix. -/
def lin {w : Nat} (A : Vector (BitVec w) w) (x : BitVec w) : BitVec w :=
  unvec ((matOf w (bitS w) A).mulVec (vecOf w (bitS w) x))

theorem vec_lin {w : Nat} (A : Vector (BitVec w) w) (x : BitVec w) :
    vecOf w (bitS w) (lin A x) = (matOf w (bitS w) A).mulVec (vecOf w (bitS w) x) := vec_unvec _

theorem lin_xor {w : Nat} (A : Vector (BitVec w) w) (x y : BitVec w) : lin A (x ^^^ y) = lin A x ^^^ lin A y := by
  apply vecS_inj
  simp only [vec_lin, vec_add, mulVec_add]

theorem lin_mul {w : Nat} {A B P : Vector (BitVec w) w}
    (h : matOf w (bitS w) P = matOf w (bitS w) A * matOf w (bitS w) B) (x : BitVec w) :
    lin P x = lin A (lin B x) := by
  apply vecS_inj
  simp only [vec_lin, h, mulVec_mulVec]

theorem lin_eq {w : Nat} {A : Vector (BitVec w) w} {x y : BitVec w}
    (h : vecOf w (bitS w) y = (matOf w (bitS w) A).mulVec (vecOf w (bitS w) x)) : y = lin A x := by
  apply vecS_inj
  rw [h, vec_lin]

/-- The affine function denoted by an `Aff32` object. -/
def ap32 (f : Aff32) (x : BitVec 32) : BitVec 32 := lin f.Mat x ^^^ f.Vec

/-- The affine function denoted by an `Aff8` object. -/
def ap8 (f : Aff8) (x : BitVec 8) : BitVec 8 := lin f.Mat x ^^^ f.Vec

theorem vec_ap32 (f : Aff32) (x : BitVec 32) : vec32 (ap32 f x) = (mat32 f.Mat).mulVec (vec32 x) + vec32 f.Vec := by
  unfold ap32
  rw [show vec32 (lin f.Mat x ^^^ f.Vec) = vec32 (lin f.Mat x) + vec32 f.Vec from vec_add _ _]
  rw [show vec32 (lin f.Mat x) = _ from vec_lin f.Mat x]

theorem vec_ap8 (f : Aff8) (x : BitVec 8) : vec8 (ap8 f x) = (mat8 f.Mat).mulVec (vec8 x) + vec8 f.Vec := by
  unfold ap8
  rw [show vec8 (lin f.Mat x ^^^ f.Vec) = vec8 (lin f.Mat x) + vec8 f.Vec from vec_add _ _]
  rw [show vec8 (lin f.Mat x) = _ from vec_lin f.Mat x]

theorem ap32_xor3 (f : Aff32) (x y z : BitVec 32) : ap32 f (x ^^^ y ^^^ z) = ap32 f x ^^^ ap32 f y ^^^ ap32 f z := by
  unfold ap32
  rw [lin_xor, lin_xor]
  generalize lin f.Mat x = a, lin f.Mat y = b, lin f.Mat z = c, f.Vec = v
  apply BitVec.eq_of_getLsbD_eq
  intro i _
  simp only [BitVec.getLsbD_xor]
  cases a.getLsbD i <;> cases b.getLsbD i <;> cases c.getLsbD i <;> cases v.getLsbD i <;> rfl

theorem affineU32_eq (env : Env) (f : Aff32) (x : BitVec 32) : affineU32 env f x = .ok (ap32 f x) := by
  obtain ⟨y, h, hy⟩ := affineU32_ok env f x
  rw [h]
  congr 1
  exact vec32_inj (by rw [hy, vec_ap32])

theorem affineU8_eq (env : Env) (f : Aff8) (x : BitVec 8) : affineU8 env f x = .ok (ap8 f x) := by
  obtain ⟨y, h, hy⟩ := affineU8_ok env f x
  rw [h]
  congr 1
  exact vec8_inj (by rw [hy, vec_ap8])

/-- Two objects denoting inverse functions. -/
def Pair32 (f g : Aff32) : Prop := ∀ x, ap32 g (ap32 f x) = x ∧ ap32 f (ap32 g x) = x

/-- Two objects denoting inverse functions. -/
def Pair8 (f g : Aff8) : Prop := ∀ x, ap8 g (ap8 f x) = x ∧ ap8 f (ap8 g x) = x

theorem pair32_of {f g : Aff32} (h : mat32 f.Mat * mat32 g.Mat = 1)
    (hv : vec32 g.Vec = (mat32 g.Mat).mulVec (vec32 f.Vec)) : Pair32 f g := by
  have h' : mat32 g.Mat * mat32 f.Mat = 1 := mat_comm h
  intro x
  constructor
  · apply vec32_inj
    rw [vec_ap32, vec_ap32, hv, aff_cancel h']
  · apply vec32_inj
    rw [vec_ap32, vec_ap32, hv, aff_cancel' h]

theorem pair8_of {f g : Aff8} (h : mat8 f.Mat * mat8 g.Mat = 1)
    (hv : vec8 g.Vec = (mat8 g.Mat).mulVec (vec8 f.Vec)) : Pair8 f g := by
  have h' : mat8 g.Mat * mat8 f.Mat = 1 := mat_comm h
  intro x
  constructor
  · apply vec8_inj
    rw [vec_ap8, vec_ap8, hv, aff_cancel h']
  · apply vec8_inj
    rw [vec_ap8, vec_ap8, hv, aff_cancel' h]

theorem mix32_of {f g m : Aff32} (h : mat32 m.Mat = mat32 f.Mat * mat32 g.Mat)
    (hv : vec32 m.Vec = (mat32 f.Mat).mulVec (vec32 g.Vec) + vec32 f.Vec) (x : BitVec 32) :
    ap32 m x = ap32 f (ap32 g x) := by
  apply vec32_inj
  rw [vec_ap32, vec_ap32, vec_ap32, h, hv, mulVec_add, mulVec_mulVec, add_assoc]

/-! ## Bytes of a word -/

theorem vec32_byte (x : BitVec 32) :
    vec32 x = concatV (k := 4) (a := 8) fun d => vec8 (SM4.byte x d) := by
  funext c
  simp only [concatV, vecOf, SM4.byte, bitS]
  have hc : (c : Nat) < 32 := c.isLt
  have h1 : ((Fin.divNat (m := 4) (n := 8) c : Fin 4) : Nat) = (c : Nat) / 8 := rfl
  have h2 : ((Fin.modNat (m := 4) (n := 8) c : Fin 8) : Nat) = (c : Nat) % 8 := rfl
  rw [BitVec.getLsbD_extractLsb', h1, h2]
  have : 8 - 1 - (c : Nat) % 8 < 8 := by omega
  rw [show 24 - 8 * ((c : Nat) / 8) + (8 - 1 - (c : Nat) % 8) = 32 - 1 - (c : Nat) by omega]
  simp [this]

theorem com_of {f0 f1 f2 f3 : Aff8} {F : Aff32}
    (h : mat32 F.Mat = blockDiag (k := 4) (a := 8) ![mat8 f0.Mat, mat8 f1.Mat, mat8 f2.Mat, mat8 f3.Mat])
    (hv : vec32 F.Vec = concatV (k := 4) (a := 8) ![vec8 f0.Vec, vec8 f1.Vec, vec8 f2.Vec, vec8 f3.Vec])
    (x : BitVec 32) :
    SM4.byte (ap32 F x) 0 = ap8 f0 (SM4.byte x 0) ∧ SM4.byte (ap32 F x) 1 = ap8 f1 (SM4.byte x 1) ∧
      SM4.byte (ap32 F x) 2 = ap8 f2 (SM4.byte x 2) ∧ SM4.byte (ap32 F x) 3 = ap8 f3 (SM4.byte x 3) := by
  have e := vec_ap32 F x
  rw [h, hv, vec32_byte x, blockDiag_mulVec, vec32_byte (ap32 F x)] at e
  have e2 : ∀ d : Fin 4, vec8 (SM4.byte (ap32 F x) d) =
      (![mat8 f0.Mat, mat8 f1.Mat, mat8 f2.Mat, mat8 f3.Mat] d).mulVec (vec8 (SM4.byte x d)) +
        ![vec8 f0.Vec, vec8 f1.Vec, vec8 f2.Vec, vec8 f3.Vec] d := by
    have := concatV_inj (y := fun d => (![mat8 f0.Mat, mat8 f1.Mat, mat8 f2.Mat, mat8 f3.Mat] d).mulVec
      (vec8 (SM4.byte x d)) + ![vec8 f0.Vec, vec8 f1.Vec, vec8 f2.Vec, vec8 f3.Vec] d) e
    exact fun d => congrFun this d
  refine ⟨?_, ?_, ?_, ?_⟩
  · apply vec8_inj; rw [vec_ap8]; exact e2 0
  · apply vec8_inj; rw [vec_ap8]; exact e2 1
  · apply vec8_inj; rw [vec_ap8]; exact e2 2
  · apply vec8_inj; rw [vec_ap8]; exact e2 3

/-! ## Linear functions are matrices -/

/-- The word with a single one in column `j`. -/
def unitWord {w : Nat} (j : Fin w) : BitVec w := unvec (Pi.single j 1)

theorem lin_of_additive {w : Nat} (F : BitVec w → BitVec w) (hF : ∀ x y, F (x ^^^ y) = F x ^^^ F y)
    (A : Vector (BitVec w) w)
    (h : ∀ i j : Fin w, matOf w (bitS w) A i j = vecOf w (bitS w) (F (unitWord j)) i) (x : BitVec w) :
    lin A x = F x := by
  let g : (Fin w → ZMod 2) →+ (Fin w → ZMod 2) :=
    { toFun := fun v => vecOf w (bitS w) (F (unvec v))
      map_zero' := by
        have h0 : F 0 = 0 := by
          have := hF 0 0
          rw [BitVec.xor_self] at this
          rw [BitVec.xor_self] at this
          exact this
        have : unvec (0 : Fin w → ZMod 2) = 0 := by
          apply vecS_inj
          rw [vec_unvec]
          funext j
          simp [vecOf, bitS, bitF]
        rw [this, h0]
        funext j
        simp [vecOf, bitS, bitF]
      map_add' := fun u v => by rw [unvec_add, hF, vec_add] }
  have e : LinearMap.toMatrix' (AddMonoidHom.toZModLinearMap 2 g) = matOf w (bitS w) A := by
    ext i j
    rw [LinearMap.toMatrix'_apply, h i j]
    rfl
  apply vecS_inj
  rw [vec_lin, ← e, LinearMap.toMatrix'_mulVec]
  show vecOf w (bitS w) (F (unvec (vecOf w (bitS w) x))) = _
  rw [unvec_vec]

end WB
