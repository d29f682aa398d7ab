import Verif.Model.M4riMove
import Verif.Model.M4riTrans

/-!
# M4RI: the product after Strassen

`/repo/test/github1_M4RI/src/m4ri/strassen.c`, on words, in the same configuration as `M4riWord`.

A window is passed by value: `mzd_window` is the window at the beginning of a call, and `onWindow` writes the words of the window back.
The windows of one matrix that a function uses together do not share words, except for `_mzd_add(C, A, B)` with `C` equal to `A` or `B`;
there every word is read before it is written, and it is written once.  `e` gives what each call of `_mzd_mul_m4rm` depends on besides its
arguments; the list is the path of the call in the recursion.  `tr` is `mzd_transpose(NULL, ·)`, for a window or not.
-/
namespace WB.m4w

open WB.cmp (Mem Mem2)

/-- `mzd_init_window(M, lowr, lowc, highr, highc)`, `/repo/test/github1_M4RI/src/m4ri/mzd.c:232-281` -/
def mzd_window (M : Mzd) (lowr lowc highr highc : Nat) : Mzd :=
  ⟨min (highr - lowr) (M.nrows - lowr), highc - lowc, M.off + lowc / 64, ⟨M.mem.rows - lowr, M.mem.cols, fun i j => M.mem.cell (lowr + i) j⟩⟩

/-- The matrix after its window from row `lowr` on has become `W`. -/
def writeBack (M : Mzd) (lowr : Nat) (W : Mzd) : Mzd :=
  { M with mem := ⟨M.mem.rows, M.mem.cols, fun i j => if lowr ≤ i then W.mem.cell (i - lowr) j else M.mem.cell i j⟩ }

/-- `f` on a window of `M`. -/
def onWindow (M : Mzd) (lowr lowc highr highc : Nat) (f : Mzd → C Mzd) : C Mzd := do
  let W ← f (mzd_window M lowr lowc highr highc)
  pure (writeBack M lowr W)

/-- The windows `A11`, `A12`, `A21` and `A22` of `p` rows and `q` columns (`u`, `v` from 0 on). -/
def quad (M : Mzd) (p q u v : Nat) : Mzd := mzd_window M (u * p) (v * q) (u * p + p) (v * q + q)

/-- `f` on one of these windows. -/
def onQuad (M : Mzd) (p q u v : Nat) (f : Mzd → C Mzd) : C Mzd := onWindow M (u * p) (v * q) (u * p + p) (v * q + q) f

/-- `mzd_transpose(NULL, A)` for a window `A`, `/repo/test/github1_M4RI/src/m4ri/mzd.c:1385-1413` -/
def mzd_transpose_win (junk : Nat → Word) (mb : Mzd → Mzd → C Mzd) (A : Mzd) : C Mzd :=
  let D := mzd_init A.ncols A.nrows
  if A.nrows = 0 ∨ A.ncols = 0 then mzd_copy D A
  else do _mzd_transpose junk mb D (← mzd_copy_new A)

/-- `mzd_transpose(NULL, A)`; the Boolean says whether `A` is a window. -/
def mzd_transpose_any (junk : Nat → Word) (mb : Mzd → Mzd → C Mzd) (win : Bool) (A : Mzd) : C Mzd :=
  if win then mzd_transpose_win junk mb A else mzd_transpose junk mb A

/-- `mzd_addmul_naive`, `/repo/test/github1_M4RI/src/m4ri/mzd.c:1434-1447` -/
def mzd_addmul_naive (tr : Mzd → C Mzd) (C' A B : Mzd) : C Mzd :=
  if C'.nrows ≠ A.nrows ∨ C'.ncols ≠ B.ncols then .error .abort
  else if B.ncols < 54 then do _mzd_addmul_naive C' A (← tr B)
  else mzd_addmul_va C' A B

/-- `_mzd_mul_m4rm(C, A, B, 0, clear)`, `/repo/test/github1_M4RI/src/m4ri/brilliantrussian.c:1033-1202` -/
def _mzd_mul_m4rm (tr : Mzd → C Mzd) (e : MulEnv) (clear : Bool) (C' A B : Mzd) : C Mzd :=
  if B.ncols < 54 ∨ A.nrows < 16 then (if clear then mzd_mul_naive tr C' A B else mzd_addmul_naive tr C' A B)
  else if clear then mul_m4rm_tables e.junk e.align.toNat e.k0 C' A B
  else addmul_m4rm_tables e.junk e.align.toNat e.k0 C' A B

/-- `mzd_addmul_m4rm(C, A, B, 0)`, `/repo/test/github1_M4RI/src/m4ri/brilliantrussian.c:1013-1029` -/
def mzd_addmul_m4rm (tr : Mzd → C Mzd) (e : MulEnv) (C' A B : Mzd) : C Mzd :=
  if C'.ncols = 0 ∨ C'.nrows = 0 then pure C'
  else if A.ncols ≠ B.nrows then .error .abort
  else if C'.nrows ≠ A.nrows ∨ C'.ncols ≠ B.ncols then .error .abort
  else _mzd_mul_m4rm tr e false C' A B

/-- `closer`, `/repo/test/github1_M4RI/src/m4ri/strassen.c:39-41` -/
def closer (a cutoff : Nat) : Bool := 3 * a < 4 * cutoff

/-- One of the products in `closer` does not fit into `int`.  The sizes only get smaller in the recursion and the cutoff does not change, so that
it is enough to look at the first call. -/
def closerOverflows (a cutoff : Nat) : Bool := 2 ^ 31 ≤ 3 * a || 2 ^ 31 ≤ 4 * cutoff

/-- The value of `mult` after the loop, `/repo/test/github1_M4RI/src/m4ri/strassen.c:75-80` -/
def multOf (cutoff width mult : Nat) : Nat := if cutoff < width then multOf cutoff (width / 2) (2 * mult) else mult
termination_by width
decreasing_by omega

/-- `(((x - x % mult) / m4ri_radix) >> 1) * m4ri_radix`, `/repo/test/github1_M4RI/src/m4ri/strassen.c:82-84` -/
def halfOf (x mult : Nat) : Nat := (x - x % mult) / 64 / 2 * 64

/-- The blocks, `/repo/test/github1_M4RI/src/m4ri/strassen.c:86-167`; `mul` is `_mzd_mul_even(·, ·, ·, cutoff)`, with the number of the call. -/
def mulBlocks (mul : Nat → Mzd → Mzd → Mzd → C Mzd) (p k q : Nat) (C' A B : Mzd) : C Mzd := do
  let Wkn ← _mzd_add (mzd_init k q) (quad B k q 1 1) (quad B k q 0 1)
  let Wmk ← _mzd_add (mzd_init p k) (quad A p k 1 1) (quad A p k 0 1)
  let C' ← onQuad C' p q 1 0 fun W => mul 0 W Wmk Wkn
  let Wmk ← _mzd_add Wmk (quad A p k 1 1) (quad A p k 1 0)
  let Wkn ← _mzd_add Wkn (quad B k q 1 1) (quad B k q 1 0)
  let C' ← onQuad C' p q 1 1 fun W => mul 1 W Wmk Wkn
  let Wkn ← _mzd_add Wkn Wkn (quad B k q 0 1)
  let Wmk ← _mzd_add Wmk Wmk (quad A p k 0 1)
  let C' ← onQuad C' p q 0 0 fun W => mul 2 W Wmk Wkn
  let Wmk ← _mzd_add Wmk Wmk (quad A p k 0 0)
  let C' ← onQuad C' p q 0 1 fun W => mul 3 W Wmk (quad B k q 0 1)
  let C' ← onQuad C' p q 0 1 fun W => _mzd_add W W (quad C' p q 1 1)
  let Wmn ← mul 4 (mzd_init p q) (quad A p k 0 1) (quad B k q 1 0)
  let C' ← onQuad C' p q 0 0 fun W => _mzd_add W W Wmn
  let C' ← onQuad C' p q 0 1 fun W => _mzd_add W (quad C' p q 0 0) W
  let C' ← onQuad C' p q 0 0 fun W => _mzd_add W (quad C' p q 1 0) W
  let Wkn ← _mzd_add Wkn Wkn (quad B k q 0 0)
  let C' ← onQuad C' p q 1 0 fun W => mul 5 W (quad A p k 1 0) Wkn
  let C' ← onQuad C' p q 1 0 fun W => _mzd_add W (quad C' p q 0 0) W
  let C' ← onQuad C' p q 1 1 fun W => _mzd_add W W (quad C' p q 0 0)
  let C' ← onQuad C' p q 0 0 fun W => mul 6 W (quad A p k 0 0) (quad B k q 0 0)
  onQuad C' p q 0 0 fun W => _mzd_add W W Wmn

/-- The rest, `/repo/test/github1_M4RI/src/m4ri/strassen.c:168-202`; `p`, `k` and `q` are `mmm`, `kkk` and `nnn` after they have been doubled. -/
def mulRem (tr : Mzd → C Mzd) (e : Nat → MulEnv) (p k q : Nat) (C' A B : Mzd) : C Mzd := do
  let C' ← (if q < B.ncols then
    onWindow C' 0 q A.nrows B.ncols fun W => _mzd_mul_m4rm tr (e 0) true W A (mzd_window B 0 q A.ncols B.ncols) else pure C')
  let C' ← (if p < A.nrows then
    onWindow C' p 0 A.nrows q fun W => _mzd_mul_m4rm tr (e 1) true W (mzd_window A p 0 A.nrows A.ncols) (mzd_window B 0 0 A.ncols q) else pure C')
  if k < A.ncols then
    onWindow C' 0 0 p q fun W => mzd_addmul_m4rm tr (e 2) W (mzd_window A 0 k p A.ncols) (mzd_window B k 0 A.ncols q)
  else pure C'

/-- `_mzd_mul_even(C, A, B, cutoff)`, `/repo/test/github1_M4RI/src/m4ri/strassen.c:44-206`; `win` says whether one of the matrices is a window.
In the recursive calls one of them always is one.  `mzd_mul(NULL, A12, B21, cutoff)` (line 141) does not change the cutoff any more; the first
argument bounds the depth. -/
def _mzd_mul_even (tr : Bool → Mzd → C Mzd) (cutoff : Nat) : Nat → (List Nat → MulEnv) → Bool → Mzd → Mzd → Mzd → C Mzd
  | 0, _, _, _, _, _ => .error .diverge
  | fuel + 1, e, win, C', A, B =>
    if C'.nrows = 0 ∨ C'.ncols = 0 then pure C'
    else if closer A.nrows cutoff || closer A.ncols cutoff || closer B.ncols cutoff then
      if win then do
        let Abar ← mzd_copy_new A
        let Bbar ← mzd_copy_new B
        let Cbar ← _mzd_mul_m4rm (tr false) (e []) false (mzd_init A.nrows B.ncols) Abar Bbar
        mzd_copy C' Cbar
      else _mzd_mul_m4rm (tr false) (e []) true C' A B
    else do
      let mult := multOf cutoff (min (min A.nrows B.ncols) A.ncols / 2) 64
      let p := halfOf A.nrows mult
      let k := halfOf A.ncols mult
      let q := halfOf B.ncols mult
      let C' ← mulBlocks (fun i => _mzd_mul_even tr cutoff fuel (fun l => e (i :: l)) true) p k q C' A B
      mulRem (tr true) (fun i => e [7 + i]) (2 * p) (2 * k) (2 * q) C' A B

/-- The blocks of a square, `/repo/test/github1_M4RI/src/m4ri/strassen.c:240-298`; `sqr` is `_mzd_sqr_even(·, ·, cutoff)`. -/
def sqrBlocks (mul : Nat → Mzd → Mzd → Mzd → C Mzd) (sqr : Nat → Mzd → Mzd → C Mzd) (p : Nat) (C' A : Mzd) : C Mzd := do
  let Wkn ← _mzd_add (mzd_init p p) (quad A p p 1 1) (quad A p p 0 1)
  let C' ← onQuad C' p p 1 0 fun W => sqr 0 W Wkn
  let Wkn ← _mzd_add Wkn (quad A p p 1 1) (quad A p p 1 0)
  let C' ← onQuad C' p p 1 1 fun W => sqr 1 W Wkn
  let Wkn ← _mzd_add Wkn Wkn (quad A p p 0 1)
  let C' ← onQuad C' p p 0 0 fun W => sqr 2 W Wkn
  let Wkn ← _mzd_add Wkn Wkn (quad A p p 0 0)
  let C' ← onQuad C' p p 0 1 fun W => mul 3 W Wkn (quad A p p 0 1)
  let C' ← onQuad C' p p 0 1 fun W => _mzd_add W W (quad C' p p 1 1)
  let Wmk ← mul 4 (mzd_init p p) (quad A p p 0 1) (quad A p p 1 0)
  let C' ← onQuad C' p p 0 0 fun W => _mzd_add W W Wmk
  let C' ← onQuad C' p p 0 1 fun W => _mzd_add W (quad C' p p 0 0) W
  let C' ← onQuad C' p p 0 0 fun W => _mzd_add W (quad C' p p 1 0) W
  let C' ← onQuad C' p p 1 0 fun W => mul 5 W (quad A p p 1 0) Wkn
  let C' ← onQuad C' p p 1 0 fun W => _mzd_add W (quad C' p p 0 0) W
  let C' ← onQuad C' p p 1 1 fun W => _mzd_add W W (quad C' p p 0 0)
  let C' ← onQuad C' p p 0 0 fun W => sqr 6 W (quad A p p 0 0)
  onQuad C' p p 0 0 fun W => _mzd_add W W Wmk

/-- `_mzd_sqr_even(C, A, cutoff)`, `/repo/test/github1_M4RI/src/m4ri/strassen.c:208-337`.  The rest (lines 299-333) is that of the product. -/
def _mzd_sqr_even (tr : Bool → Mzd → C Mzd) (cutoff : Nat) : Nat → (List Nat → MulEnv) → Bool → Mzd → Mzd → C Mzd
  | 0, _, _, _, _ => .error .diverge
  | fuel + 1, e, win, C', A =>
    if closer A.nrows cutoff then
      if win then do
        let Abar ← mzd_copy_new A
        let Cbar ← _mzd_mul_m4rm (tr false) (e []) false (mzd_init A.nrows A.nrows) Abar Abar
        mzd_copy C' Cbar
      else _mzd_mul_m4rm (tr false) (e []) true C' A A
    else do
      let p := halfOf A.nrows (multOf cutoff (A.nrows / 2) 64)
      let C' ← sqrBlocks (fun i => _mzd_mul_even tr cutoff fuel (fun l => e (i :: l)) true) (fun i => _mzd_sqr_even tr cutoff fuel (fun l => e (i :: l)) true) p C' A
      mulRem (tr true) (fun i => e [7 + i]) (2 * p) (2 * p) (2 * p) C' A A

/-- The cutoff that is used, `/repo/test/github1_M4RI/src/m4ri/strassen.c:348-355`; `dflt` is `__M4RI_STRASSEN_MUL_CUTOFF`. -/
def cutoffOf (dflt cutoff : Nat) : Nat :=
  let c := (if cutoff = 0 then dflt else cutoff) / 64 * 64
  if c < 64 then 64 else c

/-- Overflow in `closer(m, cutoff) || closer(k, cutoff) || closer(n, cutoff)`, from the left to the right. -/
def productOverflows (m k n cutoff : Nat) : Bool :=
  closerOverflows m cutoff || (!closer m cutoff && (closerOverflows k cutoff || (!closer k cutoff && closerOverflows n cutoff)))

/-- `mzd_mul(NULL, A, B, cutoff)` for `0 ≤ cutoff` and two different matrices, `/repo/test/github1_M4RI/src/m4ri/strassen.c:341-366`; `win` says
whether `A` or `B` is a window. -/
def mzd_mul (tr : Bool → Mzd → C Mzd) (e : List Nat → MulEnv) (win : Bool) (dflt cutoff : Nat) (A B : Mzd) : C Mzd :=
  if A.ncols ≠ B.nrows then .error .abort
  else if A.nrows ≠ 0 ∧ B.ncols ≠ 0 ∧ productOverflows A.nrows A.ncols B.ncols (cutoffOf dflt cutoff) then .error .overflow
  else _mzd_mul_even tr (cutoffOf dflt cutoff) (A.nrows + 1) e win (mzd_init A.nrows B.ncols) A B

/-- `mzd_mul(NULL, A, A, cutoff)` -/
def mzd_sqr (tr : Bool → Mzd → C Mzd) (e : List Nat → MulEnv) (win : Bool) (dflt cutoff : Nat) (A : Mzd) : C Mzd :=
  if A.ncols ≠ A.nrows then .error .abort
  else if closerOverflows A.nrows (cutoffOf dflt cutoff) then .error .overflow
  else _mzd_sqr_even tr (cutoffOf dflt cutoff) (A.nrows + 1) e win (mzd_init A.nrows A.ncols) A

/-! ## The product that is added -/

/-- The blocks, `/repo/test/github1_M4RI/src/m4ri/strassen.c:405-483`; `mul` and `addmul` are `_mzd_mul_even(·, ·, ·, cutoff)` and
`_mzd_addmul_even(·, ·, ·, cutoff)`, with the number of the call; the Boolean says whether a matrix is a window. -/
def addmulBlocks (mul addmul : Nat → Bool → Mzd → Mzd → Mzd → C Mzd) (p k q : Nat) (C' A B : Mzd) : C Mzd := do
  let S ← _mzd_add (mzd_init p k) (quad A p k 1 1) (quad A p k 1 0)
  let T ← _mzd_add (mzd_init k q) (quad B k q 1 1) (quad B k q 1 0)
  let U ← mul 0 false (mzd_init p q) S T
  let C' ← onQuad C' p q 1 1 fun W => _mzd_add W U W
  let C' ← onQuad C' p q 0 1 fun W => _mzd_add W U W
  let U ← mul 1 true U (quad A p k 0 1) (quad B k q 1 0)
  let C' ← onQuad C' p q 0 0 fun W => _mzd_add W U W
  let C' ← onQuad C' p q 0 0 fun W => addmul 2 true W (quad A p k 0 0) (quad B k q 0 0)
  let S ← _mzd_add S S (quad A p k 0 1)
  let T ← _mzd_add T T (quad B k q 0 1)
  let U ← addmul 3 false U S T
  let C' ← onQuad C' p q 0 1 fun W => _mzd_add W W U
  let S ← _mzd_add S (quad A p k 0 0) S
  let C' ← onQuad C' p q 0 1 fun W => addmul 4 true W S (quad B k q 0 1)
  let T ← _mzd_add T (quad B k q 0 0) T
  let C' ← onQuad C' p q 1 0 fun W => addmul 5 true W (quad A p k 1 0) T
  let S ← _mzd_add S (quad A p k 1 1) (quad A p k 0 1)
  let T ← _mzd_add T (quad B k q 1 1) (quad B k q 0 1)
  let U ← addmul 6 false U S T
  let C' ← onQuad C' p q 1 0 fun W => _mzd_add W W U
  onQuad C' p q 1 1 fun W => _mzd_add W W U

/-- The rest, `/repo/test/github1_M4RI/src/m4ri/strassen.c:484-518` -/
def addmulRem (tr : Mzd → C Mzd) (e : Nat → MulEnv) (p k q : Nat) (C' A B : Mzd) : C Mzd := do
  let C' ← (if q < B.ncols then
    onWindow C' 0 q A.nrows B.ncols fun W => mzd_addmul_m4rm tr (e 0) W A (mzd_window B 0 q A.ncols B.ncols) else pure C')
  let C' ← (if p < A.nrows then
    onWindow C' p 0 A.nrows q fun W => mzd_addmul_m4rm tr (e 1) W (mzd_window A p 0 A.nrows A.ncols) (mzd_window B 0 0 A.ncols q) else pure C')
  if k < A.ncols then
    onWindow C' 0 0 p q fun W => mzd_addmul_m4rm tr (e 2) W (mzd_window A 0 k p A.ncols) (mzd_window B k 0 A.ncols q)
  else pure C'

/-- `_mzd_addmul_even(C, A, B, cutoff)`, `/repo/test/github1_M4RI/src/m4ri/strassen.c:368-522` -/
def _mzd_addmul_even (tr : Bool → Mzd → C Mzd) (cutoff : Nat) : Nat → (List Nat → MulEnv) → Bool → Mzd → Mzd → Mzd → C Mzd
  | 0, _, _, _, _, _ => .error .diverge
  | fuel + 1, e, win, C', A, B =>
    if C'.nrows = 0 ∨ C'.ncols = 0 then pure C'
    else if closer A.nrows cutoff || closer A.ncols cutoff || closer B.ncols cutoff then
      if win then do
        let Abar ← mzd_copy_new A
        let Bbar ← mzd_copy_new B
        let Cbar ← mzd_copy_new C'
        let Cbar ← mzd_addmul_m4rm (tr false) (e []) Cbar Abar Bbar
        mzd_copy C' Cbar
      else mzd_addmul_m4rm (tr false) (e []) C' A B
    else do
      let mult := multOf cutoff (min (min A.nrows B.ncols) A.ncols / 2) 64
      let p := halfOf A.nrows mult
      let k := halfOf A.ncols mult
      let q := halfOf B.ncols mult
      let C' ← addmulBlocks (fun i => _mzd_mul_even tr cutoff fuel (fun l => e (i :: l))) (fun i => _mzd_addmul_even tr cutoff fuel (fun l => e (i :: l))) p k q C' A B
      addmulRem (tr true) (fun i => e [7 + i]) (2 * p) (2 * k) (2 * q) C' A B

/-- The blocks of a square that is added, `/repo/test/github1_M4RI/src/m4ri/strassen.c:563-619` -/
def addsqrBlocks (mul addmul : Nat → Bool → Mzd → Mzd → Mzd → C Mzd) (sqr addsqr : Nat → Bool → Mzd → Mzd → C Mzd) (p : Nat) (C' A : Mzd) : C Mzd := do
  let S ← _mzd_add (mzd_init p p) (quad A p p 1 1) (quad A p p 1 0)
  let U ← sqr 0 false (mzd_init p p) S
  let C' ← onQuad C' p p 1 1 fun W => _mzd_add W U W
  let C' ← onQuad C' p p 0 1 fun W => _mzd_add W U W
  let U ← mul 1 true U (quad A p p 0 1) (quad A p p 1 0)
  let C' ← onQuad C' p p 0 0 fun W => _mzd_add W U W
  let C' ← onQuad C' p p 0 0 fun W => addsqr 2 true W (quad A p p 0 0)
  let S ← _mzd_add S S (quad A p p 0 1)
  let U ← addsqr 3 false U S
  let C' ← onQuad C' p p 0 1 fun W => _mzd_add W W U
  let S ← _mzd_add S (quad A p p 0 0) S
  let C' ← onQuad C' p p 0 1 fun W => addmul 4 true W S (quad A p p 0 1)
  let C' ← onQuad C' p p 1 0 fun W => addmul 5 true W (quad A p p 1 0) S
  let S ← _mzd_add S (quad A p p 1 1) (quad A p p 0 1)
  let U ← addsqr 6 false U S
  let C' ← onQuad C' p p 1 0 fun W => _mzd_add W W U
  onQuad C' p p 1 1 fun W => _mzd_add W W U

/-- `_mzd_addsqr_even(C, A, cutoff)`, `/repo/test/github1_M4RI/src/m4ri/strassen.c:524-658`.  The rest (lines 620-655) is that of `_mzd_addmul_even`. -/
def _mzd_addsqr_even (tr : Bool → Mzd → C Mzd) (cutoff : Nat) : Nat → (List Nat → MulEnv) → Bool → Mzd → Mzd → C Mzd
  | 0, _, _, _, _ => .error .diverge
  | fuel + 1, e, win, C', A =>
    if C'.nrows = 0 then pure C'
    else if closer A.nrows cutoff then
      if win then do
        let Cbar ← mzd_copy_new C'
        let Abar ← mzd_copy_new A
        let Cbar ← mzd_addmul_m4rm (tr false) (e []) Cbar Abar Abar
        mzd_copy C' Cbar
      else mzd_addmul_m4rm (tr false) (e []) C' A A
    else do
      let p := halfOf A.nrows (multOf cutoff (A.nrows / 2) 64)
      let C' ← addsqrBlocks (fun i => _mzd_mul_even tr cutoff fuel (fun l => e (i :: l))) (fun i => _mzd_addmul_even tr cutoff fuel (fun l => e (i :: l)))
        (fun i => _mzd_sqr_even tr cutoff fuel (fun l => e (i :: l))) (fun i => _mzd_addsqr_even tr cutoff fuel (fun l => e (i :: l))) p C' A
      addmulRem (tr true) (fun i => e [7 + i]) (2 * p) (2 * p) (2 * p) C' A A

/-- `mzd_addmul(C, A, B, cutoff)` for `0 ≤ cutoff` and three different matrices, `/repo/test/github1_M4RI/src/m4ri/strassen.c:668-698` -/
def mzd_addmul (tr : Bool → Mzd → C Mzd) (e : List Nat → MulEnv) (win : Bool) (dflt cutoff : Nat) (C' A B : Mzd) : C Mzd :=
  if A.ncols ≠ B.nrows then .error .abort
  else if C'.nrows ≠ A.nrows ∨ C'.ncols ≠ B.ncols then .error .abort
  else if A.nrows = 0 ∨ A.ncols = 0 ∨ B.ncols = 0 then pure C'
  else if productOverflows A.nrows A.ncols B.ncols (cutoffOf dflt cutoff) then .error .overflow
  else _mzd_addmul_even tr (cutoffOf dflt cutoff) (A.nrows + 1) e win C' A B

/-- `mzd_addmul(C, A, A, cutoff)` -/
def mzd_addsqr (tr : Bool → Mzd → C Mzd) (e : List Nat → MulEnv) (win : Bool) (dflt cutoff : Nat) (C' A : Mzd) : C Mzd :=
  if A.ncols ≠ A.nrows then .error .abort
  else if C'.nrows ≠ A.nrows ∨ C'.ncols ≠ A.ncols then .error .abort
  else if A.nrows = 0 ∨ A.ncols = 0 then pure C'
  else if closerOverflows A.nrows (cutoffOf dflt cutoff) then .error .overflow
  else _mzd_addsqr_even tr (cutoffOf dflt cutoff) (A.nrows + 1) e win C' A

end WB.m4w
