import Verif.Proof.Dirty
import Verif.Prop.Examples

/-!
# C34 — dirty high nibbles break 4-bit functions

`mat4 A = mat4 B` says that two matrices agree on their low nibbles, i.e. denote the same 4×4
matrix.
-/
namespace WB
open Matrix

/-- C34: `isinvertM4` gives different answers for two representations of the same matrix. -/
theorem C34_isinvertM4_dirty : ∃ A B : M4, mat4 A = mat4 B ∧
    isinvertM4 A = .ok 1 ∧ isinvertM4 B = .ok 0 :=
  ⟨#v[8, 4, 2, 1], #v[8, 4, 2, 0x11], by decide, by decide +kernel, by decide +kernel⟩

/-- C34: `MattransM4` gives different answers for two representations of the same matrix. -/
theorem C34_MattransM4_dirty (env : Env) : ∃ A B : M4, mat4 A = mat4 B ∧
    ∀ T, ∃ X Y, MattransM4 env A T = .ok X ∧ MattransM4 env B T = .ok Y ∧ mat4 X ≠ mat4 Y := by
  refine ⟨#v[8, 4, 2, 1], #v[8, 0x14, 2, 1], by decide, fun T => ?_⟩
  exact ⟨_, _, trans4_eval env _ _ _ _ T, trans4_eval env _ _ _ _ T, by decide⟩

/-- C34: `MatMulMatM4` gives different answers for two representations of the same right factor. -/
theorem C34_MatMulMatM4_dirty (env : Env) : ∃ A B B' : M4, mat4 B = mat4 B' ∧
    ∀ C0, ∃ X Y, MatMulMatM4 env A B C0 = .ok X ∧ MatMulMatM4 env A B' C0 = .ok Y ∧
      mat4 X ≠ mat4 Y := by
  refine ⟨#v[8, 4, 2, 1], #v[8, 4, 2, 1], #v[8, 0x14, 2, 1], by decide, fun C0 => ?_⟩
  obtain ⟨X, hX, h, -⟩ := MatMulMatM4_any env #v[8, 4, 2, 1] #v[8, 4, 2, 1] C0
  obtain ⟨Y, hY, h', -⟩ := MatMulMatM4_any env #v[8, 4, 2, 1] #v[8, 0x14, 2, 1] C0
  refine ⟨X, Y, hX, hY, ?_⟩
  rw [h, h']
  decide

/-- C34: exactly which dirt `MattransM4` tolerates: bit 4 of rows 1 and 3 must be clear, the other
fourteen high bits are irrelevant. -/
theorem C34_MattransM4_exact (env : Env) (A T0 : M4) :
    ∃ T, MattransM4 env A T0 = .ok T ∧
      (mat4 T = (mat4 A)ᵀ ↔ A[1].getLsbD 4 = false ∧ A[3].getLsbD 4 = false) := by
  obtain ⟨T, hT, h, -⟩ := MattransM4_any env A T0
  refine ⟨T, hT, ?_⟩
  rw [h, ← dirt4_zero_iff, transpose_inj]
  exact add_eq_left

/-- C34: exactly which dirt `MatMulMatM4` tolerates: none of the high bits of the left factor
matters; of the right factor bit 4 of rows 1 and 3 must be clear. -/
theorem C34_MatMulMatM4_exact (env : Env) (B : M4) :
    (∀ A C0, ∃ P, MatMulMatM4 env A B C0 = .ok P ∧ mat4 P = mat4 A * mat4 B) ↔
      B[1].getLsbD 4 = false ∧ B[3].getLsbD 4 = false := by
  rw [← dirt4_zero_iff]
  constructor
  · intro h
    obtain ⟨P, hP, hm⟩ := h #v[8, 4, 2, 1] #v[8, 4, 2, 1]
    obtain ⟨Q, hQ, hm', -⟩ := MatMulMatM4_any env #v[8, 4, 2, 1] B #v[8, 4, 2, 1]
    obtain rfl : P = Q := Except.ok.inj (hP.symm.trans hQ)
    have e : mat4 #v[8, 4, 2, 1] = 1 := by decide
    rw [hm', e, one_mul, one_mul] at hm
    exact add_eq_left.1 hm
  · intro h A C0
    obtain ⟨P, hP, hm, -⟩ := MatMulMatM4_any env A B C0
    exact ⟨P, hP, by rw [hm, h, add_zero]⟩

/-- C34: exactly when `isinvertM4` answers 1: the matrix is invertible and some selection of its
four stored bytes has the bitwise sum `0x01` (all eight bits). -/
theorem C34_isinvertM4_exact (A : M4) :
    isinvertM4 A = .ok 1 ↔ IsUnit (mat4 A) ∧ ∃ c : Fin 4 → Bool,
      ((if c 0 then A[0] else 0) ^^^ (if c 1 then A[1] else 0)) ^^^
        ((if c 2 then A[2] else 0) ^^^ (if c 3 then A[3] else 0)) = 0x01#8 := by
  obtain ⟨r, hr, _, h⟩ := isinvertM4_any A
  rw [isUnit_iff_det]
  refine Iff.trans ?_ h
  rw [hr]
  exact ⟨fun h => Except.ok.inj h, fun h => by rw [h]⟩

example : isinvertM4 #v[0xf8, 0x34, 0xa2, 1] = .ok 1 := by decide +kernel
example : isinvertM4 #v[0xf8, 0x34, 0xa2, 0x21] = .ok 0 := by decide +kernel
example : MattransM4 exEnv #v[0xf8, 0xe4, 0xf2, 0xe1] exB4 = .ok #v[8, 4, 2, 1] := by decide +kernel
example : MattransM4 exEnv #v[0xf8, 0xf4, 0xf2, 0xe1] exB4 = .ok #v[0, 4, 2, 1] := by decide +kernel

/-- C34: `MatMulVecM4` and `MatMulNumM4` tolerate any dirt in both arguments. -/
theorem C34_MatMulVecM4_any (env : Env) (A A' : M4) (x x' y0 y1 : V4) (hA : mat4 A = mat4 A')
    (hx : vec4 x = vec4 x') : ∃ y, MatMulVecM4 env A x y0 = .ok y ∧
      MatMulVecM4 env A' x' y1 = .ok y ∧ MatMulNumM4 env A x = .ok y ∧
      MatMulNumM4 env A' x' = .ok y := by
  obtain ⟨y, h, e, c⟩ := MatMulVecM4_ok env A x y0
  obtain ⟨y', h', e', c'⟩ := MatMulVecM4_ok env A' x' y1
  obtain ⟨z, k, d, b⟩ := MatMulNumM4_ok env A x
  obtain ⟨z', k', d', b'⟩ := MatMulNumM4_ok env A' x'
  obtain rfl : y' = y := vec4_inj c' c (by rw [e, e', hA, hx])
  obtain rfl : z = y' := vec4_inj b c' (by rw [e', d, hA, hx])
  obtain rfl : z' = z := vec4_inj b' b (by rw [d', d, hA, hx])
  exact ⟨_, h, h', k, k'⟩

example : mat4 exB4 = mat4 (exB4.map (· ||| 0xf0)) := by decide +kernel
example : MatMulVecM4 exEnv (exB4.map (· ||| 0xf0)) 0xf7 0 = MatMulVecM4 exEnv exB4 7 0 := by
  decide +kernel

/-- C34: `invsM4` tolerates any dirt in an invertible argument. -/
theorem C34_invsM4_any (A A' B0 B1 : M4) (h : mat4 A = mat4 A') (hu : IsUnit (mat4 A)) :
    ∃ B, invsM4 A B0 = .ok B ∧ invsM4 A' B1 = .ok B := by
  obtain ⟨B, hB, -, hc, hi⟩ := invsM4_ok A B0
  obtain ⟨B', hB', -, hc', hi'⟩ := invsM4_ok A' B1
  have d := (isUnit_iff_det _).1 hu
  obtain rfl : B' = B := mat4_inj hc' hc (mat_inv_unique (mat_comm (hi' (h ▸ d)))
    (h ▸ mat_comm (hi d)))
  exact ⟨_, hB, hB'⟩

example : invsM4 #v[0xfc, 0x34, 0xa2, 0x21] exB4 = .ok #v[12, 4, 2, 1] ∧
    invsM4 #v[0x0c, 0x04, 0x02, 0x01] exB4 = .ok #v[12, 4, 2, 1] := by decide +kernel

end WB
