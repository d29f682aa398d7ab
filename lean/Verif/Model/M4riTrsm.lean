import Verif.Model.M4riStrassen

/-!
# M4RI: systems with triangular matrices

`/repo/test/github1_M4RI/src/m4ri/triangular.c` and `triangular_russian.c`, on words, in the same configuration as `M4riWord`.

The result takes the place of the right-hand side `B`.  The triangular matrix and `B` do not share words.  The loops that the sources unroll by hand are
written as plain loops.
-/
namespace WB.m4w

open WB.cmp (Mem Mem2)

/-- The words of row `k` are added to those of row `i`, with a mask for the last word; `/repo/test/github1_M4RI/src/m4ri/triangular.c:362-364` (and 426-428,
`triangular_russian.c:18-41`, 177-200).  In a matrix without columns the last word has the index -1. -/
def xorRow (B : Mzd) (i k : Nat) (mask : Word) : C Mzd :=
  if B.width = 0 then .error .oob
  else do
    let B ← forUp 0 (B.width - 1) B fun j B => do B.put i j ((← B.get i j) ^^^ (← B.get k j))
    B.put i (B.width - 1) ((← B.get i (B.width - 1)) ^^^ ((← B.get k (B.width - 1)) &&& mask))

/-- `__M4RI_GET_BIT(M->rows[i][0], k)` -/
def getBit0 (M : Mzd) (i k : Nat) : C Bool := do
  pure ((((← M.get i 0) >>> k) &&& 1#64) != 0#64)

/-- The base case of `_mzd_trsm_lower_left`, `/repo/test/github1_M4RI/src/m4ri/triangular.c:352-367` -/
def lowerLeftBase (L B : Mzd) : C Mzd :=
  forUp 1 B.nrows B fun i B => forUp 0 i B fun k B => do
    if ← getBit0 L i k then xorRow B i k (leftMask (B.ncols % 64)) else pure B

/-- The base case of `_mzd_trsm_upper_left`, `/repo/test/github1_M4RI/src/m4ri/triangular.c:412-431` -/
def upperLeftBase (U B : Mzd) : C Mzd :=
  forDown (B.nrows - 1) 0 B fun i B => forUp (i + 1) B.nrows B fun k B => do
    if ← getBit0 U i k then xorRow B i k B.high else pure B

/-- `_mzd_trsm_lower_left_submatrix`, `/repo/test/github1_M4RI/src/m4ri/triangular_russian.c:173-206`, for a matrix that has columns -/
def lowerLeftSub (L B : Mzd) (start k : Nat) (mask : Word) : C Mzd :=
  forUp 0 k B fun i B => forUp 0 i B fun j B => do
    if ← mzd_read_bit L (start + i) (start + j) then xorRow B (start + i) (start + j) mask else pure B

/-- `_mzd_trsm_upper_left_submatrix`, `/repo/test/github1_M4RI/src/m4ri/triangular_russian.c:14-47`, for a matrix that has columns -/
def upperLeftSub (U B : Mzd) (start k : Nat) (mask : Word) : C Mzd :=
  forUp 0 k B fun i B => forUp 0 i B fun j B => do
    if ← mzd_read_bit U (start + (k - i - 1)) (start + (k - i) + j) then xorRow B (start + (k - i - 1)) (start + (k - i) + j) mask else pure B

/-- One block of `8 * k` rows, `/repo/test/github1_M4RI/src/m4ri/triangular_russian.c:245-298` -/
def lowerLeftBlock (L : Mzd) (k i : Nat) (s : Mzd × (Nat → Tab)) : C (Mzd × (Nat → Tab)) := do
  let kk := 8 * k
  let B ← lowerLeftSub L s.1 i kk s.1.high
  let T ← forDown 8 0 s.2 fun z T => do
    let t ← mzd_make_table B (i + z * k) 0 k (T z)
    pure (Function.update T z t)
  let B ← forUp (i + kk) B.nrows B fun j B => do
    let tmp ← mzd_read_bits L j i kk
    let ts ← (List.range 8).mapM fun z => do
      pure ((T z).T, ← (T z).L.get ((tmp >>> (z * k)) &&& leftMask k).toNat)
    mzd_combine_n B j 0 B.width ts
  pure (B, T)

/-- `k` or fewer rows, `/repo/test/github1_M4RI/src/m4ri/triangular_russian.c:301-318` -/
def lowerLeftRest (L : Mzd) (k i : Nat) (s : Mzd × (Nat → Tab)) : C (Mzd × (Nat → Tab)) := do
  let B ← lowerLeftSub L s.1 i k s.1.high
  let t ← mzd_make_table B i 0 k (s.2 0)
  let B ← forUp (i + k) L.nrows B fun j B => do
    let x ← t.L.get (← mzd_read_bits L j i k).toNat
    mzd_combine_n B j 0 B.width [(t.T, x)]
  pure (B, Function.update s.2 0 t)

/-- The tables, `/repo/test/github1_M4RI/src/m4ri/triangular_russian.c:224-241` and 69-86: `m4ri_mm_calloc` returns zeros. -/
def trsmTables (align k nc : Nat) : Nat → Tab := mulTables (fun _ _ => 0) align k nc

/-- `_mzd_trsm_lower_left_russian(L, B, 0)`, `/repo/test/github1_M4RI/src/m4ri/triangular_russian.c:208-328`; `k0` is the value that the floating-point
computation proposes for `k`, `align` says where the rows of `B` lie.  The first loop ends with `i = 8 * k * ((B->nrows - 1) / (8 * k))`; in the second one `k` changes only in the last
iteration. -/
def _mzd_trsm_lower_left_russian (align : Bool) (k0 : Int) (L B : Mzd) : C Mzd := do
  let k := clampK k0
  let kk := 8 * k
  let q := (B.nrows - 1) / kk
  let s ← forUp 0 q (B, trsmTables align.toNat k B.ncols) fun t s => lowerLeftBlock L k (kk * t) s
  let s ← forUp 0 ((B.nrows - kk * q + k - 1) / k) s fun t s =>
    lowerLeftRest L (min k (B.nrows - (kk * q + k * t))) (kk * q + k * t) s
  pure s.1

/-- One block of `8 * k` rows, `/repo/test/github1_M4RI/src/m4ri/triangular_russian.c:89-141` -/
def upperLeftBlock (U : Mzd) (k i : Nat) (s : Mzd × (Nat → Tab)) : C (Mzd × (Nat → Tab)) := do
  let kk := 8 * k
  let B ← upperLeftSub U s.1 (s.1.nrows - i - kk) kk (leftMask (s.1.ncols % 64))
  let T ← forDown 8 0 s.2 fun z T => do
    let t ← mzd_make_table B (B.nrows - i - (z + 1) * k) 0 k (T z)
    pure (Function.update T z t)
  let B ← forUp 0 (B.nrows - i - kk) B fun j B => do
    let ts ← (List.range 8).mapM fun z => do
      pure ((T z).T, ← (T z).L.get (← mzd_read_bits U j (B.nrows - i - (z + 1) * k) k).toNat)
    mzd_combine_n B j 0 B.width ts
  pure (B, T)

/-- `k` or fewer rows, `/repo/test/github1_M4RI/src/m4ri/triangular_russian.c:144-161` -/
def upperLeftRest (U : Mzd) (k i : Nat) (s : Mzd × (Nat → Tab)) : C (Mzd × (Nat → Tab)) := do
  let B ← upperLeftSub U s.1 (s.1.nrows - i - k) k (leftMask (s.1.ncols % 64))
  let t ← mzd_make_table B (B.nrows - i - k) 0 k (s.2 0)
  let B ← forUp 0 (B.nrows - i - k) B fun j B => do
    let x ← t.L.get (← mzd_read_bits U j (B.nrows - i - k) k).toNat
    mzd_combine_n B j 0 B.width [(t.T, x)]
  pure (B, Function.update s.2 0 t)

/-- `_mzd_trsm_upper_left_russian(U, B, 0)`, `/repo/test/github1_M4RI/src/m4ri/triangular_russian.c:49-171` -/
def _mzd_trsm_upper_left_russian (align : Bool) (k0 : Int) (U B : Mzd) : C Mzd := do
  let k := clampK k0
  let kk := 8 * k
  let q := (B.nrows - 1) / kk
  let s ← forUp 0 q (B, trsmTables align.toNat k B.ncols) fun t s => upperLeftBlock U k (kk * t) s
  let s ← forUp 0 ((B.nrows - kk * q + k - 1) / k) s fun t s =>
    upperLeftRest U (min k (B.nrows - (kk * q + k * t))) (kk * q + k * t) s
  pure s.1

/-- What the calls depend on besides their arguments: addresses and the parameter of the tables, for each call in the recursion. -/
structure TrsmEnv where
  align : Bool
  k0 : Int
  mul : List Nat → MulEnv

/-- `(((n - 1) / m4ri_radix + 1) >> 1) * m4ri_radix`, `/repo/test/github1_M4RI/src/m4ri/triangular.c:371` -/
def trsmHalf (n : Nat) : Nat := ((n - 1) / 64 + 1) / 2 * 64

/-- `_mzd_trsm_lower_left(L, B, cutoff)`, `/repo/test/github1_M4RI/src/m4ri/triangular.c:347-393`; `bs` is `__M4RI_MUL_BLOCKSIZE` (512 in this configuration), `dflt` is the default of the cutoff. -/
def _mzd_trsm_lower_left (tr : Bool → Mzd → C Mzd) (bs dflt cutoff : Nat) : Nat → (List Nat → TrsmEnv) → Mzd → Mzd → C Mzd
  | 0, _, _, _ => .error .diverge
  | fuel + 1, e, L, B =>
    let mb := B.nrows
    let nb := B.ncols
    if mb ≤ 64 then lowerLeftBase L B
    else if mb ≤ bs then _mzd_trsm_lower_left_russian (e []).align (e []).k0 L B
    else do
      let mb1 := trsmHalf mb
      let B ← onWindow B 0 0 mb1 nb fun W => _mzd_trsm_lower_left tr bs dflt cutoff fuel (fun l => e (0 :: l)) (mzd_window L 0 0 mb1 mb1) W
      let B ← onWindow B mb1 0 mb nb fun W => mzd_addmul tr (e []).mul true dflt cutoff W (mzd_window L mb1 0 mb mb1) (mzd_window B 0 0 mb1 nb)
      onWindow B mb1 0 mb nb fun W => _mzd_trsm_lower_left tr bs dflt cutoff fuel (fun l => e (1 :: l)) (mzd_window L mb1 mb1 mb mb) W

/-- `mzd_trsm_lower_left(L, B, cutoff)` for `0 ≤ cutoff`, `/repo/test/github1_M4RI/src/m4ri/triangular.c:338-345` -/
def mzd_trsm_lower_left (tr : Bool → Mzd → C Mzd) (bs dflt cutoff : Nat) (e : List Nat → TrsmEnv) (L B : Mzd) : C Mzd :=
  if L.ncols ≠ B.nrows then .error .abort
  else if L.nrows ≠ L.ncols then .error .abort
  else _mzd_trsm_lower_left tr bs dflt cutoff (B.nrows + 1) e L B

/-- `_mzd_addmul(C, A, B, cutoff)` for two different matrices, `/repo/test/github1_M4RI/src/m4ri/strassen.c:660-666` -/
def _mzd_addmul (tr : Bool → Mzd → C Mzd) (e : List Nat → MulEnv) (win : Bool) (cutoff : Nat) (C' A B : Mzd) : C Mzd :=
  if C'.nrows ≠ 0 ∧ C'.ncols ≠ 0 ∧ productOverflows A.nrows A.ncols B.ncols cutoff then .error .overflow
  else _mzd_addmul_even tr cutoff (A.nrows + 1) e win C' A B

/-- `_mzd_trsm_upper_left(U, B, cutoff)`, `/repo/test/github1_M4RI/src/m4ri/triangular.c:408-458` -/
def _mzd_trsm_upper_left (tr : Bool → Mzd → C Mzd) (bs cutoff : Nat) : Nat → (List Nat → TrsmEnv) → Mzd → Mzd → C Mzd
  | 0, _, _, _ => .error .diverge
  | fuel + 1, e, U, B =>
    let mb := B.nrows
    let nb := B.ncols
    if mb ≤ 64 then upperLeftBase U B
    else if mb ≤ bs then _mzd_trsm_upper_left_russian (e []).align (e []).k0 U B
    else do
      let mb1 := trsmHalf mb
      let B ← onWindow B mb1 0 mb nb fun W => _mzd_trsm_upper_left tr bs cutoff fuel (fun l => e (0 :: l)) (mzd_window U mb1 mb1 mb mb) W
      let B ← onWindow B 0 0 mb1 nb fun W => _mzd_addmul tr (e []).mul true cutoff W (mzd_window U 0 mb1 mb1 mb) (mzd_window B mb1 0 mb nb)
      onWindow B 0 0 mb1 nb fun W => _mzd_trsm_upper_left tr bs cutoff fuel (fun l => e (1 :: l)) (mzd_window U 0 0 mb1 mb1) W

/-- `mzd_trsm_upper_left(U, B, cutoff)` for `0 ≤ cutoff`, `/repo/test/github1_M4RI/src/m4ri/triangular.c:399-406` -/
def mzd_trsm_upper_left (tr : Bool → Mzd → C Mzd) (bs cutoff : Nat) (e : List Nat → TrsmEnv) (U B : Mzd) : C Mzd :=
  if U.ncols ≠ B.nrows then .error .abort
  else if U.nrows ≠ U.ncols then .error .abort
  else _mzd_trsm_upper_left tr bs cutoff (B.nrows + 1) e U B

/-! ## From the right -/

/-- The bits of column `i` of the triangular matrix from row `lo` to row `hi - 1`, as a word, `/repo/test/github1_M4RI/src/m4ri/triangular.c:261-265` (and 118-122) -/
def ucolOf (L : Mzd) (i lo hi : Nat) : C Word :=
  forUp lo hi (0#64 : Word) fun k u => do
    if ← getBit0 L k i then pure (u ||| 1#64 <<< k) else pure u

/-- 64 rows from row `g` on, `/repo/test/github1_M4RI/src/m4ri/triangular.c:275-317` (and 133-173) -/
def rightStep (ucol : Word) (i g : Nat) (s : Mzd × Mem Word) : C (Mzd × Mem Word) := do
  let tmp ← forUp 0 64 s.2 fun b tmp => do tmp.put b ((← s.1.get (g + b) 0) &&& ucol)
  let dotprod := m4ri_parity64 tmp.cell
  let B ← forUp 0 64 s.1 fun b B => do B.put (g + b) 0 ((← B.get (g + b) 0) ^^^ (((dotprod >>> b) &&& 1#64) <<< i))
  pure (B, tmp)

/-- The last rows, `/repo/test/github1_M4RI/src/m4ri/triangular.c:319-327` (and 176-184) -/
def rightLast (ucol : Word) (i g : Nat) (s : Mzd × Mem Word) : C (Mzd × Mem Word) := do
  let tmp ← forUp 0 (s.1.nrows - g) s.2 fun b tmp => do tmp.put b ((← s.1.get (g + b) 0) &&& ucol)
  let tmp ← forUp (s.1.nrows - g) 64 tmp fun b tmp => tmp.put b 0#64
  let dotprod := m4ri_parity64 tmp.cell
  let B ← forUp 0 (s.1.nrows - g) s.1 fun b B => do
    if ((dotprod >>> b) &&& 1#64) != 0#64 then do B.put (g + b) 0 ((← B.get (g + b) 0) ^^^ (1#64 <<< i)) else pure B
  pure (B, tmp)

/-- Column `i`, `/repo/test/github1_M4RI/src/m4ri/triangular.c:268-327` (and 125-184).  The first loop ends with `giantstep = 64 * ((mb - 1) / 64)`. -/
def rightCol (ucol : Word) (i : Nat) (s : Mzd × Mem Word) : C (Mzd × Mem Word) := do
  let q := (s.1.nrows - 1) / 64
  let s ← forUp 0 q s fun t s => rightStep ucol i (64 * t) s
  rightLast ucol i (64 * q) s

/-- `_mzd_trsm_lower_right_base(L, B)`, `/repo/test/github1_M4RI/src/m4ri/triangular.c:255-331`; `junk` is what the array `tmp` holds before it is written. -/
def lowerRightBase (junk : Nat → Word) (L B : Mzd) : C Mzd := do
  let s ← forDown B.ncols 0 (B, (⟨64, junk⟩ : Mem Word)) fun i s => do rightCol (← ucolOf L i (i + 1) B.ncols) i s
  pure s.1

/-- `_mzd_trsm_upper_right_base(U, B)`, `/repo/test/github1_M4RI/src/m4ri/triangular.c:112-188` -/
def upperRightBase (junk : Nat → Word) (U B : Mzd) : C Mzd := do
  let s ← forUp 1 B.ncols (B, (⟨64, junk⟩ : Mem Word)) fun i s => do rightCol (← ucolOf U i 0 i) i s
  pure s.1

/-- `_mzd_trsm_lower_right(L, B, cutoff)`, `/repo/test/github1_M4RI/src/m4ri/triangular.c:206-253` -/
def _mzd_trsm_lower_right (tr : Bool → Mzd → C Mzd) (junk : Nat → Word) (dflt cutoff : Nat) : Nat → (List Nat → TrsmEnv) → Mzd → Mzd → C Mzd
  | 0, _, _, _ => .error .diverge
  | fuel + 1, e, L, B =>
    let mb := B.nrows
    let nb := B.ncols
    if nb ≤ 64 then lowerRightBase junk L B
    else do
      let nb1 := trsmHalf nb
      let B ← onWindow B 0 nb1 mb nb fun W => _mzd_trsm_lower_right tr junk dflt cutoff fuel (fun l => e (0 :: l)) (mzd_window L nb1 nb1 nb nb) W
      let B ← onWindow B 0 0 mb nb1 fun W => mzd_addmul tr (e []).mul true dflt cutoff W (mzd_window B 0 nb1 mb nb) (mzd_window L nb1 0 nb nb1)
      onWindow B 0 0 mb nb1 fun W => _mzd_trsm_lower_right tr junk dflt cutoff fuel (fun l => e (1 :: l)) (mzd_window L 0 0 nb1 nb1) W

/-- `mzd_trsm_lower_right(L, B, cutoff)` for `0 ≤ cutoff`, `/repo/test/github1_M4RI/src/m4ri/triangular.c:197-204` -/
def mzd_trsm_lower_right (tr : Bool → Mzd → C Mzd) (junk : Nat → Word) (dflt cutoff : Nat) (e : List Nat → TrsmEnv) (L B : Mzd) : C Mzd :=
  if L.nrows ≠ B.ncols then .error .abort
  else if L.nrows ≠ L.ncols then .error .abort
  else _mzd_trsm_lower_right tr junk dflt cutoff (B.ncols + 1) e L B

end WB.m4w
