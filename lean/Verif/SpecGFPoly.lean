import Mathlib.Algebra.Polynomial.Div
import Mathlib.Data.ZMod.Basic
import Mathlib.Algebra.BigOperators.Fin

/-!
# Bytes as polynomials over GF(2)
-/
namespace WB
open Polynomial

/-- The polynomial over GF(2) whose coefficient of `X^i` is bit `i` of the byte. -/
noncomputable def poly (a : BitVec 8) : (ZMod 2)[X] := ∑ i : Fin 8, if a.getLsbD i then X ^ i.val else 0

end WB
