import Mathlib.Logic.Function.Basic
import Verif.C

/-!
# Model of the matrix layer of the M4RI based programs

`/repo/test/github1_M4RI/src/matrixlib/matrix_gf2.c` (the files `test/WBSM4/M4RI/src/matrixlib/matrix_gf2.c` and
`test/WBAES/M4RI/src/matrixlib/matrix_gf2.c` are identical copies), a layer of helper functions on top of M4RI's matrix
type `mzd_t`.  A `MatGf2` is a pointer to an `mzd_t`; the functions allocate and free matrices, so the model has a heap.

Of M4RI itself the functions that only move bits (`mzd_init`, `mzd_free`, `mzd_copy`, `mzd_concat`, `mzd_stack`,
`mzd_add`, `mzd_cmp`, `mzd_read_bit`, `mzd_write_bit`, `mzd_row_swap`, `mzd_row_add_offset`, `mzd_gauss_delayed`,
`mzd_from_str`) are modelled.  The matrix product (`mzd_mul_m4rm`), the inverse (`mzd_inv_m4ri`), the transpose
(`mzd_transpose`) and the random words (`mzd_randomize`) enter through a record `M4ri`.

Simplifications: `malloc` never fails; addresses are numbers that are never used twice, so that every use of a freed
matrix is seen; a matrix is an array of bits, the padding bits of the last word of a row are not part of it, and an
access to them counts as out of bounds; sizes are not negative; windows (`mzd_init_window`) do not occur.
-/
namespace WB.m4ri

/-- What can go wrong: the faults of `WB.Fault`, and the following. -/
inductive MFault
  /-- undefined behaviour of the kinds listed there -/
  | c (f : Fault)
  /-- a null pointer is used -/
  | null
  /-- a matrix is used or freed after it has been freed -/
  | freed
  /-- `m4ri_die` or a failed `assert` -/
  | abort
  deriving DecidableEq, Repr

/-- `mzd_t`, `/repo/test/github1_M4RI/include/m4ri/mzd.h:86-160`: numbers of rows and columns, and the bits. -/
structure Mzd where
  nrows : Nat
  ncols : Nat
  bit : Nat → Nat → Bool

/-- The state: the matrices that are allocated, the next unused address, the number of calls of `mzd_randomize` made so
far, and the text written to stdout.  Address 0 is the null pointer. -/
structure Heap where
  obj : Nat → Option Mzd
  next : Nat
  rand : Nat
  out : List Char

/-- A computation with the heap. -/
abbrev MM := StateT Heap (Except MFault)

/-- The functions of M4RI that are not modelled. -/
structure M4ri where
  /-- the matrix that `mzd_mul_m4rm(NULL, a, b, 0)` returns -/
  mul : Mzd → Mzd → Mzd
  /-- the matrix that `mzd_inv_m4ri(NULL, a, 0)` returns -/
  inv : Mzd → Mzd
  /-- the matrix that `mzd_transpose(NULL, a)` returns -/
  transpose : Mzd → Mzd
  /-- `rnd k i j` is bit `(i, j)` stored by the `k`-th call of `mzd_randomize` -/
  rnd : Nat → Nat → Nat → Bool

def fail {α : Type} (f : MFault) : MM α := fun _ => .error f

/-- A computation without heap. -/
def liftC {α : Type} (x : C α) : MM α := fun s =>
  match x with
  | .ok a => .ok (a, s)
  | .error f => .error (.c f)

/-- `*p` -/
def deref (p : Nat) : MM Mzd := fun s =>
  if p = 0 then .error .null
  else match s.obj p with
    | some m => .ok (m, s)
    | none => .error .freed

/-- `*p = m` for a matrix `p` that exists. -/
def store (p : Nat) (m : Mzd) : MM Unit := fun s =>
  .ok ((), { s with obj := Function.update s.obj p (some m) })

/-- A new matrix. -/
def alloc (m : Mzd) : MM Nat := fun s =>
  .ok (s.next, { s with obj := Function.update s.obj s.next (some m), next := s.next + 1 })

/-- `printf` -/
def print (t : List Char) : MM Unit := fun s => .ok ((), { s with out := s.out ++ t })

/-! ## M4RI -/

/-- `/repo/test/github1_M4RI/src/m4ri/mzd.c:149-191` -/
def mzd_init (r c : Nat) : MM Nat := alloc ⟨r, c, fun _ _ => false⟩

/-- `/repo/test/github1_M4RI/src/m4ri/mzd.c:271-282` -/
def mzd_free (p : Nat) : MM Unit := do
  let _ ← deref p
  modify fun s => { s with obj := Function.update s.obj p none }

/-- `/repo/test/github1_M4RI/include/m4ri/mzd.h:568-570`, on the matrix itself -/
def readBit (m : Mzd) (row col : Nat) : C Bool :=
  if row < m.nrows ∧ col < m.ncols then .ok (m.bit row col) else .error .oob

/-- `/repo/test/github1_M4RI/include/m4ri/mzd.h:584-586` and the macro `__M4RI_WRITE_BIT`
(`/repo/test/github1_M4RI/include/m4ri/misc.h:236`): the bit stored is bit `col % 64` of `-(word)value` -/
def writeBit (m : Mzd) (row col : Nat) (value : Int) : C Mzd :=
  if row < m.nrows ∧ col < m.ncols then
    .ok { m with bit := fun i j =>
      if i = row ∧ j = col then (-(BitVec.ofInt 64 value)).getLsbD (col % 64) else m.bit i j }
  else .error .oob

/-- `mzd_read_bit(M, row, col)` -/
def mzd_read_bit (p row col : Nat) : MM Bool := do
  liftC (readBit (← deref p) row col)

/-- `mzd_write_bit(M, row, col, value)` -/
def mzd_write_bit (p row col : Nat) (value : Int) : MM Unit := do
  store p (← liftC (writeBit (← deref p) row col value))

/-- `/repo/test/github1_M4RI/src/m4ri/mzd.c:1555-1565` -/
def mzd_randomize (lib : M4ri) (p : Nat) : MM Unit := do
  let m ← deref p
  if m.ncols = 0 ∧ 0 < m.nrows then fail (.c .oob)
  else
    store p { m with bit := lib.rnd (← get).rand }
    modify fun s => { s with rand := s.rand + 1 }

/-- `mzd_copy(NULL, P)`, `/repo/test/github1_M4RI/src/m4ri/mzd.c:1651-1673`; the word before the first one of a row is used if there are
rows but no columns -/
def mzd_copy (p : Nat) : MM Nat := do
  let m ← deref p
  if m.ncols = 0 ∧ 0 < m.nrows then fail (.c .oob)
  else alloc m

/-- `mzd_concat(NULL, A, B)`, `/repo/test/github1_M4RI/src/m4ri/mzd.c:1676-1703` -/
def mzd_concat (a b : Nat) : MM Nat := do
  let A ← deref a
  let B ← deref b
  if A.nrows ≠ B.nrows then fail .abort
  else alloc ⟨A.nrows, A.ncols + B.ncols, fun i j => if j < A.ncols then A.bit i j else B.bit i (j - A.ncols)⟩

/-- `mzd_stack(NULL, A, B)`, `/repo/test/github1_M4RI/src/m4ri/mzd.c:1705-1734` -/
def mzd_stack (a b : Nat) : MM Nat := do
  let A ← deref a
  let B ← deref b
  if A.ncols ≠ B.ncols then fail .abort
  else alloc ⟨A.nrows + B.nrows, A.ncols, fun i j => if i < A.nrows then A.bit i j else B.bit (i - A.nrows) j⟩

/-- `mzd_add(NULL, left, right)`, `/repo/test/github1_M4RI/src/m4ri/mzd.c:1756-1767` -/
def mzd_add (a b : Nat) : MM Nat := do
  let A ← deref a
  let B ← deref b
  if A.nrows ≠ B.nrows ∨ A.ncols ≠ B.ncols then fail .abort
  else alloc ⟨A.nrows, A.ncols, fun i j => A.bit i j ^^ B.bit i j⟩

/-- `mzd_mul_m4rm(NULL, A, B, 0)`, `/repo/test/github1_M4RI/src/m4ri/brilliantrussian.c:998-1010` -/
def mzd_mul_m4rm (lib : M4ri) (a b : Nat) : MM Nat := do
  let A ← deref a
  let B ← deref b
  if A.ncols ≠ B.nrows then fail .abort
  else alloc (lib.mul A B)

/-- `mzd_inv_m4ri(NULL, A, 0)`, `/repo/test/github1_M4RI/src/m4ri/brilliantrussian.c:969-995` -/
def mzd_inv_m4ri (lib : M4ri) (a : Nat) : MM Nat := do
  let A ← deref a
  if A.nrows ≠ A.ncols then fail .abort
  else alloc (lib.inv A)

/-- `mzd_transpose(NULL, A)`, `/repo/test/github1_M4RI/src/m4ri/mzd.c:1385-1420` -/
def mzd_transpose (lib : M4ri) (a : Nat) : MM Nat := do alloc (lib.transpose (← deref a))

/-- `mzd_row_swap(M, a, b)`, `/repo/test/github1_M4RI/include/m4ri/mzd.h:381-413` -/
def rowSwap (m : Mzd) (a b : Nat) : Mzd :=
  { m with bit := fun i j => if i = a then m.bit b j else if i = b then m.bit a j else m.bit i j }

/-- `mzd_row_add_offset(M, dst, src, off)`, `/repo/test/github1_M4RI/include/m4ri/mzd.h:664-711`: the columns from `off`
on of row `src` are added to row `dst` -/
def rowAdd (m : Mzd) (dst src off : Nat) : Mzd :=
  { m with bit := fun i j => if i = dst ∧ off ≤ j then m.bit i j ^^ m.bit src j else m.bit i j }

/-- `/repo/test/github1_M4RI/src/m4ri/mzd.c:308-333`, called with `startcol = 0` and `full = 0`; the state is the matrix
and `startrow` -/
def gauss_delayed (m : Mzd) : C Mzd := do
  let (m, _) ← forUp 0 m.ncols (m, 0) fun i (m, startrow) =>
    forBrk startrow m.nrows (m, startrow) fun j (m, startrow) => do
      if ← readBit m j i then
        let m := rowSwap m startrow j
        let m ← forUp (startrow + 1) m.nrows m fun ii m => do
          if ii ≠ startrow then
            if ← readBit m ii i then pure (rowAdd m ii startrow i) else pure m
          else pure m
        pure (.stop (m, startrow + 1))
      else pure (.next (m, startrow))
  pure m

/-- `mzd_echelonize_naive(M, 0)`, `/repo/test/github1_M4RI/src/m4ri/mzd.c:335-337` -/
def mzd_echelonize_naive (p : Nat) : MM Unit := do
  store p (← liftC (gauss_delayed (← deref p)))

/-- Word `k` of row `i` without the padding bits. -/
def Mzd.word (m : Mzd) (i k : Nat) : BitVec 64 :=
  BitVec.iunfoldr (fun b (_ : Unit) => ((), decide (64 * k + b.val < m.ncols) && m.bit i (64 * k + b.val))) () |>.2

/-- `/repo/test/github1_M4RI/src/m4ri/mzd.c:1623-1649` -/
def mzd_cmp (a b : Nat) : MM Int := do
  let A ← deref a
  let B ← deref b
  if A.nrows < B.nrows then return -1
  if B.nrows < A.nrows then return 1
  if A.ncols < B.ncols then return -1
  if B.ncols < A.ncols then return 1
  let width := (A.ncols + 63) / 64
  if A.ncols = 0 ∧ 0 < A.nrows then fail (.c .oob)
  let r ← forRet 0 A.nrows () fun i _ => do
    let r : Step Int Unit ← iterStop (fun j _ =>
      if A.word i j < B.word i j then pure (.stop (-1))
      else if B.word i j < A.word i j then pure (.stop 1)
      else pure (.next ())) (List.range width).reverse ()
    pure r
  match r with
  | .stop x => pure x
  | .next _ => pure 0

/-- `/repo/test/github1_M4RI/src/m4ri/io.c:365-374`; `str` is the list of the characters from `str` on -/
def mzd_from_str (m n : Nat) (str : List (BitVec 8)) : MM Nat := do
  let A ← mzd_init m n
  let _ ← forUp 0 m 0 fun i idx => forUp 0 n idx fun j idx => do
    match str[idx]? with
    | none => fail (.c .oob)
    | some ch =>
      mzd_write_bit A i j (if ch = 49#8 then 1 else 0)
      pure (idx + 1)
  pure A

/-! ## The layer -/

/-- `matrix_gf2.c:5-7` -/
def GenMatGf2 (r c : Nat) : MM Nat := mzd_init r c

/-- `matrix_gf2.c:367-370` -/
def MatGf2Free (mat : Nat) : MM Unit := if mat ≠ 0 then mzd_free mat else pure ()

/-- `matrix_gf2.c:183-186` (the `%` of C truncates towards zero) -/
def MatGf2Set (mat row col : Nat) (value : Int) : MM Unit := mzd_write_bit mat row col (value.tmod 2)

/-- `matrix_gf2.c:188-190` -/
def MatGf2Get (mat row col : Nat) : MM Bool := mzd_read_bit mat row col

/-- `matrix_gf2.c:192-195` -/
def RandomMatGf2 (lib : M4ri) (mat : Nat) : MM Unit := mzd_randomize lib mat

/-- `matrix_gf2.c:10-14` -/
def GenRandomMatGf2 (lib : M4ri) (r c : Nat) : MM Nat := do
  let t ← GenMatGf2 r c
  RandomMatGf2 lib t
  pure t

/-- `matrix_gf2.c:16-25` -/
def GenIndMatrix (size : Nat) : MM Nat := do
  let dst ← GenMatGf2 size size
  forUp 0 size () fun i _ => forUp 0 size () fun j _ => MatGf2Set dst i j (if i = j then 1 else 0)
  pure dst

/-- `matrix_gf2.c:27-34` -/
def GenZeroVec (size : Nat) : MM Nat := do
  let vec ← GenMatGf2 size 1
  forUp 0 size () fun i _ => MatGf2Set vec i 0 0
  pure vec

/-- `matrix_gf2.c:244-248` with `GenMatGf2Copy`, `matrix_gf2.c:112-114`; `dest` is the old value of `*dest`, the result the
new one -/
def MatGf2Copy (source dest : Nat) : MM Nat := do
  MatGf2Free dest
  mzd_copy source

/-- `matrix_gf2.c:250-263`; the index `-1` of a matrix without rows is out of bounds -/
def IsMatGf2Invertible (mat : Nat) : MM Nat := do
  let m ← deref mat
  if m.nrows ≠ m.ncols then return 0
  let x ← MatGf2Copy mat 0
  mzd_echelonize_naive x
  let n := (← deref x).nrows
  let b ← if n = 0 then fail (.c .oob) else MatGf2Get x (n - 1) (n - 1)
  MatGf2Free x
  pure (if b then 1 else 0)

/-- The `while` loop of `GenInvertibleMatGf2`, with at most `fuel` evaluations of the condition. -/
def drawInvertible (lib : M4ri) (mat : Nat) : Nat → MM Unit
  | 0 => fail (.c .diverge)
  | fuel + 1 => do
    if (← IsMatGf2Invertible mat) = 0 then
      RandomMatGf2 lib mat
      drawInvertible lib mat fuel
    else pure ()

/-- `matrix_gf2.c:36-42` -/
def GenInvertibleMatGf2 (lib : M4ri) (fuel r c : Nat) : MM Nat := do
  let mat ← GenRandomMatGf2 lib r c
  drawInvertible lib mat fuel
  pure mat

/-- `matrix_gf2.c:44-46` -/
def GenMatGf2Stack (a b : Nat) : MM Nat := mzd_stack a b

/-- `matrix_gf2.c:48-50` -/
def GenMatGf2Concat (a b : Nat) : MM Nat := mzd_concat a b

/-- `matrix_gf2.c:123-127`; `mat` is the old value of `*mat`, the result the new one -/
def ReAllocatedMatGf2 (r c mat : Nat) : MM Nat := do
  MatGf2Free mat
  mzd_init r c

/-- `matrix_gf2.c:129-133` -/
def ReAllocatedRandomMatGf2 (lib : M4ri) (r c mat : Nat) : MM Nat := do
  MatGf2Free mat
  GenRandomMatGf2 lib r c

/-- `matrix_gf2.c:116-120` -/
def ReAllocatedInvertibleMatGf2 (lib : M4ri) (fuel r c dst : Nat) : MM Nat := do
  MatGf2Free dst
  GenInvertibleMatGf2 lib fuel r c

/-- `matrix_gf2.c:342-365`; `dst` is the old value of `*dst`, the result the new one -/
def MatGf2Diag (a b dst : Nat) : MM Nat := do
  let n1 := (← deref a).ncols
  let n2 := (← deref b).ncols
  let d ← ReAllocatedMatGf2 (n1 + n2) (n1 + n2) dst
  forUp 0 n1 () fun i _ => do
    forUp 0 n1 () fun j _ => do MatGf2Set d i j (if ← MatGf2Get a i j then 1 else 0)
    forUp 0 n2 () fun j _ => MatGf2Set d i (n1 + j) 0
  forUp 0 n2 () fun i _ => do
    forUp 0 n1 () fun j _ => MatGf2Set d (n1 + i) j 0
    forUp 0 n2 () fun j _ => do MatGf2Set d (n1 + i) (n1 + j) (if ← MatGf2Get b i j then 1 else 0)
  pure d

/-- `matrix_gf2.c:52-56` -/
def GenMatGf2Diag (a b : Nat) : MM Nat := MatGf2Diag a b 0

/-- `matrix_gf2.c:58-60` -/
def GenMatGf2Inv (lib : M4ri) (mat : Nat) : MM Nat := mzd_inv_m4ri lib mat

/-- `matrix_gf2.c:62-64` -/
def GenMatGf2Mul (lib : M4ri) (a b : Nat) : MM Nat := mzd_mul_m4rm lib a b

/-- `matrix_gf2.c:66-68` -/
def GenMatGf2Add (a b : Nat) : MM Nat := mzd_add a b

/-- `matrix_gf2.c:112-114` -/
def GenMatGf2Copy (source : Nat) : MM Nat := mzd_copy source

/-- `matrix_gf2.c:216-226` -/
def MatGf2Inv (lib : M4ri) (mat mat_inv : Nat) : MM Nat := do
  let r ← GenMatGf2Inv lib mat
  MatGf2Free mat_inv
  pure r

/-- `matrix_gf2.c:229-234` -/
def MatGf2Mul (lib : M4ri) (a b dst : Nat) : MM Nat := do
  let r ← GenMatGf2Mul lib a b
  MatGf2Free dst
  pure r

/-- `matrix_gf2.c:236-241` -/
def MatGf2Add (a b dst : Nat) : MM Nat := do
  let r ← GenMatGf2Add a b
  MatGf2Free dst
  pure r

/-- `matrix_gf2.c:265-270` -/
def MatGf2Transpose (lib : M4ri) (a dst : Nat) : MM Nat := do
  let r ← mzd_transpose lib a
  MatGf2Free dst
  pure r

/-- `matrix_gf2.c:327-332` -/
def MatGf2Stack (a b dst : Nat) : MM Nat := do
  let r ← GenMatGf2Stack a b
  MatGf2Free dst
  pure r

/-- `matrix_gf2.c:335-340` -/
def MatGf2Concat (a b dst : Nat) : MM Nat := do
  let r ← GenMatGf2Concat a b
  MatGf2Free dst
  pure r

/-- `matrix_gf2.c:136-144`; `data` is the array of `int` that the caller passes -/
def InitMatGf2ByValueArray (data : List Int) (mat : Nat) : MM Unit := do
  let m ← deref mat
  let n := m.nrows
  forUp 0 n () fun i _ => forUp 0 m.ncols () fun j _ =>
    match data[n * i + j]? with
    | none => fail (.c .oob)
    | some v => MatGf2Set mat i j v

/-- `matrix_gf2.c:147-158` -/
def InitMatrixFromBitArray (data : List (BitVec 64)) (mat : Nat) : MM Unit := do
  let m ← deref mat
  forUp 0 m.nrows () fun i _ =>
    match data[i]? with
    | none => fail (.c .oob)
    | some t => do
      let _ ← forDown m.ncols 0 t fun j t => do
        MatGf2Set mat i j (if t.getLsbD 0 then 1 else 0)
        pure (t >>> 1)
      pure ()

/-- The loop of `InitVecFromBit` (`matrix_gf2.c:160-168`, `unsigned long`), `InitVecFromBit_64` (`170-180`, `uint64_t`) and
`InitVecFromBit_128` (`415-425`, `__uint128_t`), for a `w`-bit `data` -/
def initVec {w : Nat} (data : BitVec w) (mat : Nat) : MM Unit := do
  let m ← deref mat
  let _ ← forDown m.nrows 0 data fun i t => do
    MatGf2Set mat i 0 (if t.getLsbD 0 then 1 else 0)
    pure (t >>> 1)
  pure ()

/-- `matrix_gf2.c:160-168` -/
def InitVecFromBit (data : BitVec 64) (mat : Nat) : MM Unit := initVec data mat

/-- `matrix_gf2.c:170-180` -/
def InitVecFromBit_64 (data : BitVec 64) (mat : Nat) : MM Unit := initVec data mat

/-- `matrix_gf2.c:415-425` -/
def InitVecFromBit_128 (data : BitVec 128) (mat : Nat) : MM Unit := initVec data mat

/-- The text `[Error] nrows: %d, ncols: %d\n`. -/
def errText (m : Mzd) : List Char := s!"[Error] nrows: {m.nrows}, ncols: {m.ncols}\n".toList

/-- The common body of `getDigitalFromVec` (`matrix_gf2.c:312-324`, `w = 32`), `getDigital64FromVec` (`281-298`, `w = 64`)
and `getDigital128FromVec` (`427-443`, `w = 128`) -/
def getDigital (w : Nat) (vec : Nat) : MM (BitVec w) := do
  let m ← deref vec
  if m.ncols ≠ 1 then
    print (errText m)
    return 0#w
  forUp 0 m.nrows (0#w) fun i d => do
    pure ((d <<< 1) + (if ← MatGf2Get vec i 0 then 1#w else 0#w))

/-- `matrix_gf2.c:312-324` -/
def getDigitalFromVec (vec : Nat) : MM (BitVec 32) := getDigital 32 vec

/-- `matrix_gf2.c:281-298` -/
def getDigital64FromVec (vec : Nat) : MM (BitVec 64) := getDigital 64 vec

/-- `matrix_gf2.c:427-443` -/
def getDigital128FromVec (vec : Nat) : MM (BitVec 128) := getDigital 128 vec

/-- `matrix_gf2.c:273-279` -/
def get32FromVec (vec : Nat) : MM (BitVec 32) := do
  let m ← deref vec
  if m.nrows ≠ 32 then
    print (errText m)
    return 0#32
  getDigitalFromVec vec

/-- `matrix_gf2.c:300-308` -/
def get64FromVec (vec : Nat) : MM (BitVec 64) := do
  let m ← deref vec
  if m.nrows ≠ 64 then
    print (errText m)
    return 0#64
  getDigital64FromVec vec

/-- `matrix_gf2.c:445-453` -/
def get128FromVec (vec : Nat) : MM (BitVec 128) := do
  let m ← deref vec
  if m.nrows ≠ 128 then
    print (errText m)
    return 0#128
  getDigital128FromVec vec

/-- `GenMatAddU8`, `GenMatAddU16`, `GenMatAddU32` (`matrix_gf2.c:70-88`) for `n` = 8, 16, 32 -/
def GenMatAddU (n : Nat) (a : Nat) (b : BitVec n) : MM Nat := do
  let mat ← GenMatGf2 n 1
  InitVecFromBit (b.setWidth 64) mat
  mzd_add a mat

/-- `matrix_gf2.c:91-99` -/
def AddMatToU32 (a : Nat) (b : BitVec 32) : MM (BitVec 32) := do
  let mat ← GenMatGf2 32 1
  InitVecFromBit (b.setWidth 64) mat
  let mat ← mzd_add a mat
  let r ← get32FromVec mat
  MatGf2Free mat
  pure r

/-- `matrix_gf2.c:101-110` -/
def AddMatToU64 (a : Nat) (b : BitVec 64) : MM (BitVec 64) := do
  let mat ← GenMatGf2 64 1
  InitVecFromBit_64 b mat
  let mat ← mzd_add a mat
  let r ← get64FromVec mat
  MatGf2Free mat
  pure r

/-- `matrix_gf2.c:456-465` -/
def AddMatToU128 (mat : Nat) (x : BitVec 128) : MM (BitVec 128) := do
  let mat_x ← ReAllocatedMatGf2 128 1 0
  InitVecFromBit_128 x mat_x
  let mat_x ← MatGf2Add mat mat_x mat_x
  let result ← get128FromVec mat_x
  MatGf2Free mat_x
  pure result

/-- `matrix_gf2.c:374-381` -/
def ApplyMatToU8 (lib : M4ri) (mat : Nat) (data : BitVec 8) : MM (BitVec 8) := do
  let a ← GenMatGf2 8 1
  InitVecFromBit (data.setWidth 64) a
  let a ← MatGf2Mul lib mat a a
  let result := (← getDigitalFromVec a).setWidth 8
  MatGf2Free a
  pure result

/-- `matrix_gf2.c:383-391` -/
def ApplyMatToU16 (lib : M4ri) (mat : Nat) (data : BitVec 16) : MM (BitVec 16) := do
  let a ← GenMatGf2 16 1
  InitVecFromBit (data.setWidth 64) a
  let a ← MatGf2Mul lib mat a a
  let result := (← getDigitalFromVec a).setWidth 16
  MatGf2Free a
  pure result

/-- `matrix_gf2.c:393-400` -/
def ApplyMatToU32 (lib : M4ri) (mat : Nat) (data : BitVec 32) : MM (BitVec 32) := do
  let a ← GenMatGf2 32 1
  InitVecFromBit (data.setWidth 64) a
  let a ← MatGf2Mul lib mat a a
  let result ← getDigitalFromVec a
  MatGf2Free a
  pure result

/-- `matrix_gf2.c:401-409` -/
def ApplyMatToU64 (lib : M4ri) (mat : Nat) (data : BitVec 64) : MM (BitVec 64) := do
  let a ← GenMatGf2 64 1
  InitVecFromBit_64 data a
  let a ← MatGf2Mul lib mat a a
  let result ← get64FromVec a
  MatGf2Free a
  pure result

/-- `matrix_gf2.c:469-477` -/
def ApplyMatToU128 (lib : M4ri) (mat : Nat) (data : BitVec 128) : MM (BitVec 128) := do
  let a ← GenMatGf2 128 1
  InitVecFromBit_128 data a
  let a ← MatGf2Mul lib mat a a
  let result ← get128FromVec a
  MatGf2Free a
  pure result

/-- `matrix_gf2.c:481-483` -/
def MatGf2Cmp (a b : Nat) : MM Int := mzd_cmp a b

/-- The four bytes of a `uint32_t` in the order in which they lie in memory. -/
def bytes32 (e : Endian) (x : BitVec 32) : List (BitVec 8) :=
  let l := [x.extractLsb' 0 8, x.extractLsb' 8 8, x.extractLsb' 16 8, x.extractLsb' 24 8]
  match e with
  | .little => l
  | .big => l.reverse

/-- The `uint32_t` that lies in memory as these four bytes. -/
def word32 (e : Endian) (b0 b1 b2 b3 : BitVec 8) : BitVec 32 :=
  match e with
  | .little => b3 ++ b2 ++ b1 ++ b0
  | .big => b0 ++ b1 ++ b2 ++ b3

/-- `matrix_gf2.c:485-501`; the result is the byte array (the caller frees it) -/
def ExportMatGf2ToStr (e : Endian) (a : Nat) : MM (List (BitVec 8)) := do
  let m ← deref a
  let head := bytes32 e (BitVec.ofNat 32 m.nrows) ++ bytes32 e (BitVec.ofNat 32 m.ncols)
  forUp 0 m.nrows head fun i r => forUp 0 m.ncols r fun j r => do
    pure (r ++ [if ← MatGf2Get a i j then 49#8 else 48#8])

/-- `matrix_gf2.c:503-510` -/
def ImportMatGf2FromStr (e : Endian) (source : List (BitVec 8)) : MM Nat :=
  match source with
  | a0 :: a1 :: a2 :: a3 :: b0 :: b1 :: b2 :: b3 :: str =>
    mzd_from_str (word32 e a0 a1 a2 a3).toNat (word32 e b0 b1 b2 b3).toNat str
  | _ => fail (.c .oob)

/-- `matrix_gf2.c:197-210` -/
def DumpMatGf2Line (a : Nat) (newLine : Bool) : MM Unit := do
  let m ← deref a
  forUp 0 m.nrows () fun i _ => do
    forUp 0 m.ncols () fun j _ => do
      if newLine then print [' ']
      print [if ← MatGf2Get a i j then '1' else '0']
      if newLine then print [' '] else print [',', ' ']
    if newLine then print ['\n'] else print [' ', '|', ' ']
  if newLine then print ['\n']

/-- `matrix_gf2.c:212-214` -/
def DumpMatGf2 (mat : Nat) : MM Unit := DumpMatGf2Line mat true

end WB.m4ri
