import Verif.Proof.Dirty
import Verif.Prop.Examples

/-!
# C33 — 4-bit results stay in the low nibble

For every input whatsoever, clean or not.
-/
namespace WB
open Matrix

/-- C33: `initM4`. -/
theorem C33_initM4 (M : M4) : ∃ Z, initM4 M = .ok Z ∧ CleanM4 Z :=
  ⟨_, initM4_eq M, by decide⟩

/-- C33: `identityM4`. -/
theorem C33_identityM4 (M : M4) : ∃ Z, identityM4 M = .ok Z ∧ CleanM4 Z :=
  ⟨_, identityM4_eq M, by decide⟩

/-- C33: `randM4`. -/
theorem C33_randM4 (M : M4) (w : World) : ∃ Z w', randM4 M w = .ok (Z, w') ∧ CleanM4 Z := by
  obtain ⟨⟨Z, w'⟩, h, hc, _⟩ := randM4_ok M w
  exact ⟨Z, w', h, hc⟩

/-- C33: `randV4`. -/
theorem C33_randV4 (v : V4) (w : World) : ∃ z w', randV4 v w = .ok (z, w') ∧ Clean4 z := by
  obtain ⟨⟨Z, w'⟩, h, hc, _⟩ := randV4_ok v w
  exact ⟨Z, w', h, hc⟩

/-- C33: `invsM4`, also for dirty and for singular arguments. -/
theorem C33_invsM4 (A B0 : M4) : ∃ B, invsM4 A B0 = .ok B ∧ CleanM4 B := by
  obtain ⟨B, h, _, hc, _⟩ := invsM4_ok A B0
  exact ⟨B, h, hc⟩

/-- C33: `MattransM4`, also for dirty arguments. -/
theorem C33_MattransM4 (env : Env) (A T0 : M4) : ∃ T, MattransM4 env A T0 = .ok T ∧ CleanM4 T := by
  obtain ⟨B, h, _, hc⟩ := MattransM4_any env A T0
  exact ⟨B, h, hc⟩

/-- C33: `MatMulMatM4`, also for dirty arguments. -/
theorem C33_MatMulMatM4 (env : Env) (A B C0 : M4) :
    ∃ P, MatMulMatM4 env A B C0 = .ok P ∧ CleanM4 P := by
  obtain ⟨P, h, _, hc⟩ := MatMulMatM4_any env A B C0
  exact ⟨P, h, hc⟩

/-- C33: `MatMulVecM4`, also for dirty arguments. -/
theorem C33_MatMulVecM4 (env : Env) (A : M4) (x y0 : V4) :
    ∃ y, MatMulVecM4 env A x y0 = .ok y ∧ Clean4 y := by
  obtain ⟨P, h, _, hc⟩ := MatMulVecM4_ok env A x y0
  exact ⟨P, h, hc⟩

/-- C33: `MatMulNumM4`, also for dirty arguments. -/
theorem C33_MatMulNumM4 (env : Env) (A : M4) (x : BitVec 8) :
    ∃ y, MatMulNumM4 env A x = .ok y ∧ Clean4 y := by
  obtain ⟨P, h, _, hc⟩ := MatMulNumM4_ok env A x
  exact ⟨P, h, hc⟩

/-- C33: `genMatpairM4`. -/
theorem C33_genMatpairM4 (env : Env) (A0 B0 : M4) (w : World) :
    ∃ A B w', genMatpairM4 env A0 B0 w = .ok ((A, B), w') ∧ CleanM4 A ∧ CleanM4 B := by
  obtain ⟨⟨⟨A, B⟩, w'⟩, h, _, hA, hB, _⟩ := genMatpairM4_ok env A0 B0 w
  exact ⟨A, B, w', h, hA, hB⟩

/-- C33: `genaffinepairM4`: all four components. -/
theorem C33_genaffinepairM4 (env : Env) (f0 g0 : Aff4) (w : World) :
    ∃ f g w', genaffinepairM4 env f0 g0 w = .ok ((f, g), w') ∧
      CleanM4 f.Mat ∧ Clean4 f.Vec ∧ CleanM4 g.Mat ∧ Clean4 g.Vec := by
  obtain ⟨⟨⟨f, g⟩, w'⟩, h, _, _, h1, h2, h3, h4, _⟩ := genaffinepairM4_ok env f0 g0 w
  exact ⟨f, g, w', h, h1, h3, h2, h4⟩

/-- A dirty matrix. -/
def exDirty4 : M4 := #v[0xf8, 0x34, 0xa2, 0x11]

example : ¬ CleanM4 exDirty4 := by decide
example : MattransM4 exEnv exDirty4 exDirty4 = .ok #v[0x02, 0x04, 0x02, 0x01] := by decide +kernel
example : MatMulMatM4 exEnv exDirty4 exDirty4 exDirty4 = .ok #v[0x00, 0x04, 0x0a, 0x01] := by
  decide +kernel
example : invsM4 exDirty4 exDirty4 = .ok #v[8, 4, 2, 1] := by decide +kernel
example : MatMulVecM4 exEnv exDirty4 0xff 0xff = .ok 0x0f := by decide +kernel
example : MatMulNumM4 exEnv exDirty4 0xf3 = .ok 0x03 := by decide +kernel

end WB
