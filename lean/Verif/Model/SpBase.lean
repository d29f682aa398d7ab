import Verif.C

/-!
# Python lists and loops, for the randomness tests in `/repo/test/randomness`

A Python exception is a `Fault`: `oob` is `IndexError`, `divZero` is `ZeroDivisionError`.  Numbers of type `int` are `Nat` or
`Int`.  A list of bits is a list of natural numbers (0 or 1, see `read_bits_from_file`).
-/
namespace WB.sp

/-- `l[i]` for an index that is not negative -/
def ix {α : Type} (l : List α) (i : Nat) : C α :=
  match l[i]? with
  | some x => .ok x
  | none => .error .oob

/-- `l[i] = x` for an index that is not negative -/
def put {α : Type} (l : List α) (i : Nat) (x : α) : C (List α) :=
  if i < l.length then .ok (l.set i x) else .error .oob

/-- The position that an index means: negative ones count from the end. -/
def pos (n : Nat) (i : Int) : C Nat :=
  if 0 ≤ i then .ok i.toNat else if 0 ≤ i + n then .ok (i + n).toNat else .error .oob

/-- `l[i]` -/
def ixZ {α : Type} (l : List α) (i : Int) : C α := do ix l (← pos l.length i)

/-- `l[i] = x` -/
def putZ {α : Type} (l : List α) (i : Int) (x : α) : C (List α) := do put l (← pos l.length i) x

/-- `l[a:b]` for bounds that are not negative -/
def slice {α : Type} (l : List α) (a b : Nat) : List α := (l.take b).drop a

end WB.sp
