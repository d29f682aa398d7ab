import Mathlib.Data.Rat.Defs
import Verif.C

/-!
# Memory and numbers of the programs in `/repo/test/github2` … `/repo/test/github7`

These programs, with which the library is compared, work on matrices of integers or floating point numbers.

* `float` and `double` are modelled by exact rational numbers: there is no rounding and there are no infinities.  A division by
  zero is the outcome `divZero` (on a real machine the program goes on with infinities and NaNs).
* `int` is an integer; a result that does not fit into 32 bits is the outcome `overflow` (undefined behaviour).
* A block of memory is its size and its contents; an access outside is the outcome `oob`.  `malloc` never fails and returns a
  block with arbitrary contents; the number of blocks that have not been freed is counted.  (A block is only known to the
  variable that it has been assigned to, so nothing else about pointers is needed.)
-/
namespace WB.cmp

/-- A block of memory with elements of one type. -/
structure Mem (α : Type) where
  size : Nat
  cell : Nat → α

/-- `a[i]` and `*(a + i)` -/
def Mem.get {α : Type} (a : Mem α) (i : Nat) : C α := if i < a.size then .ok (a.cell i) else .error .oob

/-- `a[i] = x` and `*(a + i) = x` -/
def Mem.put {α : Type} (a : Mem α) (i : Nat) (x : α) : C (Mem α) :=
  if i < a.size then .ok ⟨a.size, fun k => if k = i then x else a.cell k⟩ else .error .oob

/-- A two-dimensional array, or an array of pointers to rows. -/
structure Mem2 (α : Type) where
  rows : Nat
  cols : Nat
  cell : Nat → Nat → α

/-- `a[i][j]` -/
def Mem2.get {α : Type} (a : Mem2 α) (i j : Nat) : C α :=
  if i < a.rows ∧ j < a.cols then .ok (a.cell i j) else .error .oob

/-- `a[i][j] = x` -/
def Mem2.put {α : Type} (a : Mem2 α) (i j : Nat) (x : α) : C (Mem2 α) :=
  if i < a.rows ∧ j < a.cols then .ok ⟨a.rows, a.cols, fun k l => if k = i ∧ l = j then x else a.cell k l⟩ else .error .oob

/-- The value of an expression of type `int` -/
def int32 (x : Int) : C Int := if -2147483648 ≤ x ∧ x ≤ 2147483647 then .ok x else .error .overflow

/-- `x / y` in floating point -/
def fdiv (x y : ℚ) : C ℚ := if y = 0 then .error .divZero else .ok (x / y)

/-- The heap: the number of blocks allocated so far, and of those that have not been freed. -/
structure Heap where
  next : Nat
  live : Nat

/-- Functions that allocate memory. -/
abbrev HM := StateT Heap (Except Fault)

/-- A function that does not allocate memory. -/
def liftC {α : Type} (x : C α) : HM α := fun s => x.map fun a => (a, s)

/-- What uninitialised memory contains: `junk b i` is element `i` of the block allocated by the `b`-th call. -/
abbrev Junk (α : Type) := Nat → Nat → α

/-- `malloc(n * sizeof(α))` -/
def malloc {α : Type} (junk : Junk α) (n : Nat) : HM (Mem α) :=
  fun s => .ok (⟨n, junk s.next⟩, ⟨s.next + 1, s.live + 1⟩)

/-- `free` of a block -/
def free : HM Unit := fun s => .ok ((), { s with live := s.live - 1 })

end WB.cmp
