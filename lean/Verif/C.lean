/-!
# Execution model for the C fragment used by WBMatrix

This file fixes the meaning of the C constructs used in `/repo/src/WBMatrix/*.c`:
checked array accesses, bounded `for` loops, sub-word pointer accesses, the global
variables of the library and the environment (byte order, stack garbage, clock, stdout).

Nothing here is specific to one library function.
-/
namespace WB

/-- Kinds of undefined behaviour (and of other ends without a result) that are tracked.
They are outcomes of the model, never assumed away. -/
inductive Fault
  /-- array or object access out of bounds -/
  | oob
  /-- `%` with a zero divisor -/
  | divZero
  /-- `printf` argument does not match the conversion specification -/
  | badFormat
  /-- signed arithmetic whose result does not fit -/
  | overflow
  /-- a loop that does not end within the given number of iterations -/
  | diverge
  /-- a library that is used (NTL) ends the program with an error message -/
  | abort
  deriving DecidableEq, Repr

/-- A C computation without access to the library's global variables: either a result or
undefined behaviour. -/
abbrev C (α : Type) := Except Fault α

/-- Byte order of the machine. -/
inductive Endian
  | little
  | big
  deriving DecidableEq, Repr

/-- Platform parameters: the byte order, and the arbitrary contents of uninitialised
automatic variables (`junk w k` is the garbage found in the `k`-th `w`-bit cell). -/
structure Env where
  endian : Endian
  junk : (w : Nat) → Nat → BitVec w

/-- The mutable state outside the caller's objects:
* `randseed` — `/repo/src/WBMatrix/WBMatrix.c:3`;
* `m_index`, `m_intermediateOffset` — `/repo/src/WBMatrix/random.c:3-4`;
* `clock`, `now` — the value of the k-th call of `(unsigned int)time(NULL)` is `clock k`;
  `now` counts the calls made so far.  No relation between successive readings is assumed;
* `out` — everything written to stdout. -/
structure World where
  randseed : BitVec 32
  m_index : BitVec 32
  m_intermediateOffset : BitVec 32
  clock : Nat → BitVec 32
  now : Nat
  out : List Char

/-- A C computation that may use the library's global variables. -/
abbrev CM := StateT World (Except Fault)

/-! ## Array accesses -/

/-- `a[i]` for an index that the code computes as a non-negative number. -/
def rd {α : Type} {n : Nat} (a : Vector α n) (i : Nat) : C α :=
  if h : i < n then .ok a[i] else .error .oob

/-- `a[i] = x`. -/
def wr {α : Type} {n : Nat} (a : Vector α n) (i : Nat) (x : α) : C (Vector α n) :=
  if h : i < n then .ok (a.set i x) else .error .oob

/-- `a[i]` where `i` is a C `int` supplied by the caller (possibly negative). -/
def rdI {α : Type} {n : Nat} (a : Vector α n) (i : Int) : C α :=
  if i < 0 then .error .oob else rd a i.toNat

/-- `a[i] = x` where `i` is a C `int` supplied by the caller (possibly negative). -/
def wrI {α : Type} {n : Nat} (a : Vector α n) (i : Int) (x : α) : C (Vector α n) :=
  if i < 0 then .error .oob else wr a i.toNat x

/-- `a[i][k]`. -/
def rd2 {α : Type} {n m : Nat} (a : Vector (Vector α m) n) (i k : Nat) : C α := do
  rd (← rd a i) k

/-- `a[i][k] = x`. -/
def wr2 {α : Type} {n m : Nat} (a : Vector (Vector α m) n) (i k : Nat) (x : α) :
    C (Vector (Vector α m) n) := do
  wr a i (← wr (← rd a i) k x)

/-- `a[i][k]` with a caller supplied `int` row index. -/
def rdI2 {α : Type} {n m : Nat} (a : Vector (Vector α m) n) (i : Int) (k : Nat) : C α :=
  if i < 0 then .error .oob else rd2 a i.toNat k

/-- `a[i][k] = x` with a caller supplied `int` row index. -/
def wrI2 {α : Type} {n m : Nat} (a : Vector (Vector α m) n) (i : Int) (k : Nat) (x : α) :
    C (Vector (Vector α m) n) :=
  if i < 0 then .error .oob else wr2 a i.toNat k x

/-- `x % d` on `unsigned int`. -/
def umod (x d : BitVec 32) : C (BitVec 32) :=
  if d = 0#32 then .error .divZero else .ok (x.umod d)

/-! ## Statement shorthands

These are the recurring C statement patterns of the library. -/

/-- The condition `(A[r] & id[c]) == id[c]`. -/
def hasBit {w n m : Nat} (A : Vector (BitVec w) n) (r : Nat) (id : Vector (BitVec w) m)
    (c : Nat) : C Bool := do
  let x ← rd A r
  let m ← rd id c
  pure (x &&& m == m)

/-- The statement `A[j] ^= A[i];`. -/
def xorRow {w n : Nat} (A : Vector (BitVec w) n) (j i : Nat) : C (Vector (BitVec w) n) := do
  wr A j ((← rd A j) ^^^ (← rd A i))

/-- The statements `temp = A[i]; A[i] = A[j]; A[j] = temp;`. -/
def swapRow {w n : Nat} (A : Vector (BitVec w) n) (i j : Nat) : C (Vector (BitVec w) n) := do
  let temp ← rd A i
  let A ← wr A i (← rd A j)
  wr A j temp

/-- The condition `(A[r][k] & id[c]) == id[c]` on a matrix whose rows are word arrays. -/
def hasBit2 {w n l m : Nat} (A : Vector (Vector (BitVec w) l) n) (r k : Nat)
    (id : Vector (BitVec w) m) (c : Nat) : C Bool := do
  let x ← rd2 A r k
  let m ← rd id c
  pure (x &&& m == m)

/-- The statement `A[j][k] ^= A[i][k];`. -/
def xorRow2 {w n l : Nat} (A : Vector (Vector (BitVec w) l) n) (j i k : Nat) :
    C (Vector (Vector (BitVec w) l) n) := do
  wr2 A j k ((← rd2 A j k) ^^^ (← rd2 A i k))

/-- The statements `temp = A[i][k]; A[i][k] = A[j][k]; A[j][k] = temp;`. -/
def swapRow2 {w n l : Nat} (A : Vector (Vector (BitVec w) l) n) (i j k : Nat) :
    C (Vector (Vector (BitVec w) l) n) := do
  let temp ← rd2 A i k
  let A ← wr2 A i k (← rd2 A j k)
  wr2 A j k temp

/-- The statements `A[j][k] ^= A[i][k];` for the word indices `k` in `ks`, in this order. -/
def xorWords {w n l : Nat} (ks : List Nat) (A : Vector (Vector (BitVec w) l) n) (j i : Nat) :
    C (Vector (Vector (BitVec w) l) n) :=
  ks.foldlM (fun A k => xorRow2 A j i k) A

/-- The statements `temp = A[i][k]; A[i][k] = A[j][k]; A[j][k] = temp;` for the word indices
`k` in `ks`, in this order. -/
def swapWords {w n l : Nat} (ks : List Nat) (A : Vector (Vector (BitVec w) l) n) (i j : Nat) :
    C (Vector (Vector (BitVec w) l) n) :=
  ks.foldlM (fun A k => swapRow2 A i j k) A

/-! ## Loops -/

/-- `for(i = lo; i < hi; i++) s = f(i, s);` -/
def forUp {m : Type → Type} [Monad m] {σ : Type} (lo hi : Nat) (s : σ)
    (f : Nat → σ → m σ) : m σ :=
  (List.range' lo (hi - lo)).foldlM (fun s i => f i s) s

/-- `for(i = hi - 1; i >= lo; i--) s = f(i, s);` -/
def forDown {m : Type → Type} [Monad m] {σ : Type} (hi lo : Nat) (s : σ)
    (f : Nat → σ → m σ) : m σ :=
  (List.range' lo (hi - lo)).reverse.foldlM (fun s i => f i s) s

/-- Outcome of one iteration of a loop that may be left early: continue with state `s`, or
stop (by `break` or `return`) with `r`. -/
inductive Step (ρ σ : Type)
  | next (s : σ)
  | stop (r : ρ)

/-- Iterate `f` over a list of indices until it stops. -/
def iterStop {m : Type → Type} [Monad m] {ρ σ : Type} (f : Nat → σ → m (Step ρ σ)) :
    List Nat → σ → m (Step ρ σ)
  | [], s => pure (.next s)
  | i :: l, s => do
    match ← f i s with
    | .next s => iterStop f l s
    | .stop r => pure (.stop r)

/-- `for(i = lo; i < hi; i++) { … if(…) return r; … }`: the result says whether the loop
was left by `return`. -/
def forRet {m : Type → Type} [Monad m] {ρ σ : Type} (lo hi : Nat) (s : σ)
    (f : Nat → σ → m (Step ρ σ)) : m (Step ρ σ) :=
  iterStop f (List.range' lo (hi - lo)) s

/-- `for(i = lo; i < hi; i++) { … if(…) { …; break; } … }`: execution continues after the
loop with the state in which it was left. -/
def forBrk {m : Type → Type} [Monad m] {σ : Type} (lo hi : Nat) (s : σ)
    (f : Nat → σ → m (Step σ σ)) : m σ := do
  match ← forRet lo hi s f with
  | .next s => pure s
  | .stop s => pure s

/-! ## Sub-word accesses through pointers -/

/-- Bit offset of the `k`-th `w`-bit cell inside a `W`-bit object. -/
def Env.cellOff (env : Env) (W w k : Nat) : Nat :=
  match env.endian with
  | .little => k * w
  | .big => W - (k + 1) * w

/-- `*((uintw_t*)&x + k)` for a `W`-bit object `x`. -/
def Env.ldSub (env : Env) {W : Nat} (x : BitVec W) (w k : Nat) : C (BitVec w) :=
  if (k + 1) * w ≤ W then .ok (x.extractLsb' (env.cellOff W w k) w) else .error .oob

/-- `*((uintw_t*)&x + k) = v` for a `W`-bit object `x`. -/
def Env.stSub (env : Env) {W w : Nat} (x : BitVec W) (k : Nat) (v : BitVec w) :
    C (BitVec W) :=
  if (k + 1) * w ≤ W then
    .ok ((x &&& ~~~((BitVec.allOnes w).setWidth W <<< env.cellOff W w k)) |||
      (v.setWidth W <<< env.cellOff W w k))
  else .error .oob

/-- Contents of an uninitialised automatic array of `n` words. -/
def Env.junkArr (env : Env) (w n : Nat) : Vector (BitVec w) n :=
  Vector.ofFn fun i => env.junk w i.val

/-- Contents of an uninitialised automatic two-dimensional array. -/
def Env.junkArr2 (env : Env) (w m n : Nat) : Vector (Vector (BitVec w) m) n :=
  Vector.ofFn fun i => Vector.ofFn fun j => env.junk w (i.val * m + j.val)

end WB
