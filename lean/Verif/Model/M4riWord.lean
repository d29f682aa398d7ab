import Verif.Model.Cmp

/-!
# M4RI: the matrix product

`/repo/test/github1_M4RI/src/m4ri/{graycode,brilliantrussian,mzd}.c` and `include/m4ri/{mzd,misc,graycode,parity,xor}.h`, in the
configuration that `m4ri_config.h` selects outside Windows and macOS: no SSE2, no OpenMP, caches of 262144 bytes.

A matrix is the array of its words; column `c` of a row is bit `c % 64` of word `c / 64`.  Every access is checked against
the allocated rows and words.  A window is the same array with a word offset.  The loops that the sources unroll by hand
(Duff's device) are written as plain loops over the words.  Sizes are natural numbers.
-/
namespace WB.m4w

open WB.cmp (Mem Mem2)

abbrev Word := BitVec 64

/-- `mzd_t`, `/repo/test/github1_M4RI/include/m4ri/mzd.h:87-162`: a matrix or a window; `off` is the number of words of the
underlying rows that lie before the window. -/
structure Mzd where
  nrows : Nat
  ncols : Nat
  off : Nat
  mem : Mem2 Word

/-- `M->width`, `/repo/test/github1_M4RI/src/m4ri/mzd.c:157` -/
def Mzd.width (M : Mzd) : Nat := (M.ncols + 63) / 64

/-- `M->rows[i][j]` -/
def Mzd.get (M : Mzd) (i j : Nat) : C Word := M.mem.get i (M.off + j)

/-- `M->rows[i][j] = x` -/
def Mzd.put (M : Mzd) (i j : Nat) (x : Word) : C Mzd := do pure { M with mem := ← M.mem.put i (M.off + j) x }

/-- `m4ri_ffff`, `/repo/test/github1_M4RI/include/m4ri/misc.h:153` -/
def ffff : Word := 0xffffffffffffffff#64

/-- `__M4RI_LEFT_BITMASK(n)` for `n ≤ 64`, `/repo/test/github1_M4RI/include/m4ri/misc.h:271` -/
def leftMask (n : Nat) : Word := ffff >>> ((64 - n) % 64)

/-- `__M4RI_RIGHT_BITMASK(n)` for `0 < n ≤ 64`, `/repo/test/github1_M4RI/include/m4ri/misc.h:296` -/
def rightMask (n : Nat) : Word := ffff <<< (64 - n)

/-- `M->high_bitmask`, `/repo/test/github1_M4RI/src/m4ri/mzd.c:159` -/
def Mzd.high (M : Mzd) : Word := leftMask (M.ncols % 64)

/-- `mzd_init`, `/repo/test/github1_M4RI/src/m4ri/mzd.c:149-205`: the words are zero. -/
def mzd_init (r c : Nat) : Mzd := ⟨r, c, 0, ⟨r, (c + 63) / 64, fun _ _ => 0⟩⟩

/-- `mzd_init_window(M, 0, lowc, M->nrows, highc)`, `/repo/test/github1_M4RI/src/m4ri/mzd.c:207-253` -/
def mzd_init_window (M : Mzd) (lowc highc : Nat) : Mzd := { M with ncols := highc - lowc, off := M.off + lowc / 64 }

/-- `mzd_read_bit`, `/repo/test/github1_M4RI/include/m4ri/mzd.h:568-570` -/
def mzd_read_bit (M : Mzd) (row col : Nat) : C Bool := do
  pure ((((← M.get row (col / 64)) >>> (col % 64)) &&& 1#64) != 0#64)

/-- `mzd_write_bit`, `/repo/test/github1_M4RI/include/m4ri/mzd.h:584-586`, `misc.h:236` -/
def mzd_write_bit (M : Mzd) (row col : Nat) (value : Bool) : C Mzd := do
  let w ← M.get row (col / 64)
  let v : Word := if value then 1#64 else 0#64
  M.put row (col / 64) ((w &&& ~~~(1#64 <<< (col % 64))) ||| ((-v) &&& (1#64 <<< (col % 64))))

/-- `mzd_read_bits`, `/repo/test/github1_M4RI/include/m4ri/mzd.h:1021-1028`.  For `n = 0` and `n > 64` a shift count is out
of range. -/
def mzd_read_bits (M : Mzd) (x y n : Nat) : C Word :=
  let spot := y % 64
  let block := y / 64
  if n = 0 ∨ 64 < n then .error .overflow
  else if spot + n ≤ 64 then do
    let w ← M.get x block
    pure ((w <<< (64 - (spot + n))) >>> (64 - n))
  else do
    let spill := spot + n - 64
    let w1 ← M.get x (block + 1)
    let w0 ← M.get x block
    pure (((w1 <<< (64 - spill)) ||| (w0 >>> spill)) >>> (64 - n))

/-- `mzd_set_ui(A, value)`, `/repo/test/github1_M4RI/src/m4ri/mzd.c:1578-1600` -/
def mzd_set_ui (A : Mzd) (value : Nat) : C Mzd := do
  let A ← forUp 0 A.nrows A fun i A => do
    let A ← forUp 0 (A.width - 1) A fun j A => A.put i j 0#64
    A.put i (A.width - 1) ((← A.get i (A.width - 1)) &&& ~~~A.high)
  if value % 2 = 0 then pure A
  else forUp 0 (min A.nrows A.ncols) A fun i A => mzd_write_bit A i i true

/-- `mzd_copy(N, P)`, `/repo/test/github1_M4RI/src/m4ri/mzd.c:1651-1673` -/
def mzd_copy (N P : Mzd) : C Mzd :=
  if N.nrows < P.nrows ∨ N.ncols < P.ncols then .error .abort
  else forUp 0 P.nrows N fun i N => do
    let N ← forUp 0 (P.width - 1) N fun j N => do N.put i j (← P.get i j)
    let n ← N.get i (P.width - 1)
    let p ← P.get i (P.width - 1)
    N.put i (P.width - 1) ((n &&& ~~~P.high) ||| (p &&& P.high))

/-! ## Gray codes -/

/-- `m4ri_gray_code`, `/repo/test/github1_M4RI/src/m4ri/graycode.c:31-40`; the state is `(lastbit, res)`. -/
def m4ri_gray_code (number length : Nat) : C Nat := do
  let s ← forDown length 0 ((0, 0) : Nat × Nat) fun i (s : Nat × Nat) =>
    let bit := number &&& (1 <<< i)
    pure (bit, s.2 ||| ((s.1 >>> 1) ^^^ bit))
  pure s.2

/-- `m4ri_build_code` on two arrays from `calloc`, `/repo/test/github1_M4RI/src/m4ri/graycode.c:42-53`, `62-66` -/
def m4ri_build_code (l : Nat) : C (Mem Nat × Mem Nat) := do
  let ord ← forUp 0 (2 ^ l) (⟨2 ^ l, fun _ => 0⟩ : Mem Nat) fun i ord => do ord.put i (← m4ri_gray_code i l)
  let inc ← forDown (l + 1) 1 (⟨2 ^ l, fun _ => 0⟩ : Mem Nat) fun i inc =>
    forUp 1 (2 ^ i + 1) inc fun j inc => inc.put (j * 2 ^ (l - i) - 1) (l - i)
  pure (ord, inc)

/-- `m4ri_codebook[k]`, `/repo/test/github1_M4RI/src/m4ri/graycode.c:55-68`, with `__M4RI_MAXKAY == 16`.  The entry for 0 is a
null pointer. -/
def m4ri_codebook (k : Nat) : C (Mem Nat × Mem Nat) := if 1 ≤ k ∧ k ≤ 16 then m4ri_build_code k else .error .oob

/-- A table of linear combinations `T` and the index `L` into it. -/
structure Tab where
  T : Mzd
  L : Mem Nat

/-- `mzd_make_table(M, r, c, k, T, L)`, `/repo/test/github1_M4RI/src/m4ri/brilliantrussian.c:175-224` -/
def mzd_make_table (M : Mzd) (r c k : Nat) (t : Tab) : C Tab := do
  let homeblock := c / 64
  let mask_end := leftMask (M.ncols % 64)
  let pure_mask_begin := rightMask (64 - c % 64)
  let wide := M.width - homeblock
  let mask_begin := if wide ≠ 1 then pure_mask_begin else pure_mask_begin &&& mask_end
  let L ← t.L.put 0 0
  forUp 1 (2 ^ k) (⟨t.T, L⟩ : Tab) fun i (t : Tab) => do
    let code ← m4ri_codebook k
    let rowneeded := r + (← code.2.get (i - 1))
    let id ← code.1.get i
    let L ← t.L.put id i
    if M.nrows ≤ rowneeded then pure ⟨t.T, L⟩
    else do
      let T ← t.T.put i homeblock (((← M.get rowneeded homeblock) ^^^ (← t.T.get (i - 1) homeblock)) &&& mask_begin)
      let T ← forUp 1 (wide - 1) T fun j T => do
        T.put i (homeblock + j) ((← M.get rowneeded (homeblock + j)) ^^^ (← T.get (i - 1) (homeblock + j)))
      let T ← (if 1 < wide then do
        T.put i (homeblock + (wide - 1))
          (((← M.get rowneeded (homeblock + (wide - 1))) ^^^ (← T.get (i - 1) (homeblock + (wide - 1)))) &&& mask_end)
        else pure T)
      pure ⟨T, L⟩

/-! ## Adding rows of tables -/

/-- `_mzd_combine(m, t0, wide)` … `_mzd_combine_8(m, t, wide)`, `/repo/test/github1_M4RI/include/m4ri/xor.h`, `xor_template.h`:
the words `block, …` of row `r` of `M` are xored with those of the given rows of tables. -/
def mzd_combine_n (M : Mzd) (r block wide : Nat) (ts : List (Mzd × Nat)) : C Mzd :=
  forUp 0 wide M fun ii M => do
    let x ← ts.foldlM (fun a (p : Mzd × Nat) => do pure (a ^^^ (← p.1.get p.2 (block + ii)))) (← M.get r (block + ii))
    M.put r (block + ii) x

/-- `mzd_combine(C, i, 0, C, i, 0, A, j, 0)`, `/repo/test/github1_M4RI/include/m4ri/mzd.h:1046-1098`, `1194-1204` -/
def mzd_combine (C' : Mzd) (i : Nat) (A : Mzd) (j : Nat) : C Mzd := do
  let wide := C'.width - 1
  let C' ← forUp 0 wide C' fun k C' => do C'.put i k ((← C'.get i k) ^^^ (← A.get j k))
  C'.put i wide ((← C'.get i wide) ^^^ ((← A.get j wide) &&& C'.high))

/-! ## The product -/

/-- `_mzd_mul_va(C, v, A, 0)`, `/repo/test/github1_M4RI/src/m4ri/mzd.c:1542-1552` -/
def mzd_addmul_va (C' v A : Mzd) : C Mzd :=
  forUp 0 v.nrows C' fun i C' => forUp 0 v.ncols C' fun j C' => do
    if ← mzd_read_bit v i j then mzd_combine C' i A j else pure C'

/-- `_mzd_mul_va(C, v, A, 1)`, `/repo/test/github1_M4RI/src/m4ri/mzd.c:1538-1552` -/
def mzd_mul_va (C' v A : Mzd) : C Mzd := do
  let C' ← mzd_set_ui C' 0
  mzd_addmul_va C' v A

/-- `__M4RI_MIX32` … `__M4RI_MIX1`, `/repo/test/github1_M4RI/include/m4ri/parity.h:38-73` -/
def mix32 (a b : Word) : Word := (((a >>> 32) ^^^ a) <<< 32) ||| (((b <<< 32) ^^^ b) >>> 32)
@[inherit_doc mix32]
def mix16 (a b : Word) : Word := (((a <<< 16) ^^^ a) &&& 0xFFFF0000FFFF0000#64) ||| (((b >>> 16) ^^^ b) &&& 0x0000FFFF0000FFFF#64)
@[inherit_doc mix32]
def mix8 (a b : Word) : Word := (((a <<< 8) ^^^ a) &&& 0xFF00FF00FF00FF00#64) ||| (((b >>> 8) ^^^ b) &&& 0x00FF00FF00FF00FF#64)
@[inherit_doc mix32]
def mix4 (a b : Word) : Word := (((a <<< 4) ^^^ a) &&& 0xF0F0F0F0F0F0F0F0#64) ||| (((b >>> 4) ^^^ b) &&& 0x0F0F0F0F0F0F0F0F#64)
@[inherit_doc mix32]
def mix2 (a b : Word) : Word := (((a <<< 2) ^^^ a) &&& 0xCCCCCCCCCCCCCCCC#64) ||| (((b >>> 2) ^^^ b) &&& 0x3333333333333333#64)
@[inherit_doc mix32]
def mix1 (a b : Word) : Word := (((a <<< 1) ^^^ a) &&& 0xAAAAAAAAAAAAAAAA#64) ||| (((b >>> 1) ^^^ b) &&& 0x5555555555555555#64)

/-- `m4ri_parity64_helper(buf + o)`, `/repo/test/github1_M4RI/include/m4ri/parity.h:79-107` -/
def m4ri_parity64_helper (buf : Nat → Word) (o : Nat) : Word :=
  let a0 := mix32 (buf (o + 0x20)) (buf (o + 0x00))
  let a1 := mix32 (buf (o + 0x30)) (buf (o + 0x10))
  let b0 := mix16 a1 a0
  let a0 := mix32 (buf (o + 0x28)) (buf (o + 0x08))
  let a1 := mix32 (buf (o + 0x38)) (buf (o + 0x18))
  let b1 := mix16 a1 a0
  let c0 := mix8 b1 b0
  let a0 := mix32 (buf (o + 0x24)) (buf (o + 0x04))
  let a1 := mix32 (buf (o + 0x34)) (buf (o + 0x14))
  let b0 := mix16 a1 a0
  let a0 := mix32 (buf (o + 0x2C)) (buf (o + 0x0C))
  let a1 := mix32 (buf (o + 0x3C)) (buf (o + 0x1C))
  let b1 := mix16 a1 a0
  let c1 := mix8 b1 b0
  mix4 c1 c0

/-- `m4ri_parity64`, `/repo/test/github1_M4RI/include/m4ri/parity.h:110-131` -/
def m4ri_parity64 (buf : Nat → Word) : Word :=
  let d0 := m4ri_parity64_helper buf 0
  let d1 := m4ri_parity64_helper buf 2
  let e0 := mix2 d1 d0
  let d0 := m4ri_parity64_helper buf 1
  let d1 := m4ri_parity64_helper buf 3
  let e1 := mix2 d1 d0
  mix1 e1 e0

/-- One row of `_mzd_mul_naive`, `/repo/test/github1_M4RI/src/m4ri/mzd.c:1479-1501` and `1507-1531`; `B` is the transpose of
the second factor.  The array `parity` is passed on from row to row. -/
def mul_naive_row (A B : Mzd) (i : Nat) (s : Mzd × Mem Word) : C (Mzd × Mem Word) := do
  let eol := if s.1.ncols % 64 ≠ 0 then s.1.width - 1 else s.1.width
  let wide := A.width
  let s ← forUp 0 eol s fun j (s : Mzd × Mem Word) => do
    let parity ← forUp 0 64 s.2 fun k parity => do
      let parity ← parity.put k ((← A.get i 0) &&& (← B.get (64 * j + k) 0))
      forDown wide 1 parity fun ii parity => do
        parity.put k ((← parity.get k) ^^^ ((← A.get i ii) &&& (← B.get (64 * j + k) ii)))
    let C' ← s.1.put i j ((← s.1.get i j) ^^^ m4ri_parity64 parity.cell)
    pure (C', parity)
  if eol ≠ s.1.width then do
    let parity ← forUp 0 (s.1.ncols % 64) s.2 fun k parity => do
      let parity ← parity.put k ((← A.get i 0) &&& (← B.get (64 * eol + k) 0))
      forUp 1 A.width parity fun ii parity => do
        parity.put k ((← parity.get k) ^^^ ((← A.get i ii) &&& (← B.get (64 * eol + k) ii)))
    let C' ← s.1.put i eol ((← s.1.get i eol) ^^^ (m4ri_parity64 parity.cell &&& s.1.high))
    pure (C', parity)
  else pure s

/-- `_mzd_mul_naive(C, A, B, 0)`, `/repo/test/github1_M4RI/src/m4ri/mzd.c:1467-1536`.  The blocks of 512 rows and the rest
are processed in the same way. -/
def _mzd_addmul_naive (C' A B : Mzd) : C Mzd := do
  let s ← forUp 0 (C'.nrows / 512) (C', (⟨64, fun _ => 0#64⟩ : Mem Word)) fun start s =>
    forUp (512 * start) (512 * start + 512) s fun i s => mul_naive_row A B i s
  let s ← forUp (C'.nrows - C'.nrows % 512) C'.nrows s fun i s => mul_naive_row A B i s
  pure s.1

/-- `_mzd_mul_naive(C, A, B, 1)`, `/repo/test/github1_M4RI/src/m4ri/mzd.c:1449-1536` -/
def _mzd_mul_naive (C' A B : Mzd) : C Mzd := do
  let C' ← forUp 0 C'.nrows C' fun i C' => do
    let C' ← forUp 0 (C'.width - 1) C' fun j C' => C'.put i j 0#64
    C'.put i (C'.width - 1) ((← C'.get i (C'.width - 1)) &&& ~~~C'.high)
  _mzd_addmul_naive C' A B

/-- The value of `k` after the adjustment, `/repo/test/github1_M4RI/src/m4ri/brilliantrussian.c:1092-1095` -/
def clampK (k : Int) : Nat := if k < 2 then 2 else if 8 < k then 8 else k.toNat

/-- The eight tables, `/repo/test/github1_M4RI/src/m4ri/brilliantrussian.c:1099-1110`: windows that start at word `align` of
the rows of a larger matrix; the arrays `L` are not initialised. -/
def mulTables (junk : Nat → Nat → Nat) (align k b_nc : Nat) (z : Nat) : Tab :=
  ⟨mzd_init_window (mzd_init (2 ^ k) (b_nc + 64)) (align * 64) (b_nc + align * 64), ⟨2 ^ k, junk z⟩⟩

/-- One block of `kk` columns of `A`, `/repo/test/github1_M4RI/src/m4ri/brilliantrussian.c:1118-1165`; `giantstep` is
`512 * g`. -/
def mulBlock (A B : Mzd) (k g i : Nat) (s : Mzd × (Nat → Tab)) : C (Mzd × (Nat → Tab)) := do
  let kk := 8 * k
  let bm : Word := 1#64 <<< k - 1#64
  let T ← forUp 0 8 s.2 fun z T => do
    let t ← mzd_make_table B (kk * i + k * z) 0 k (T z)
    pure (Function.update T z t)
  let C' ← forUp (512 * g) (min (512 * g + 512) A.nrows) s.1 fun j C' => do
    let a ← mzd_read_bits A j (kk * i) kk
    let ts ← (List.range 8).mapM fun z => do
      pure ((T z).T, ← (T z).L.get ((a >>> (z * k)) &&& bm).toNat)
    mzd_combine_n C' j 0 C'.width ts
  pure (C', T)

/-- `k` or fewer columns of `A`, `/repo/test/github1_M4RI/src/m4ri/brilliantrussian.c:1171-1195` -/
def mulRest (A B : Mzd) (c k : Nat) (s : Mzd × (Nat → Tab)) : C (Mzd × (Nat → Tab)) := do
  let t ← mzd_make_table B c 0 k (s.2 0)
  let C' ← forUp 0 A.nrows s.1 fun j C' => do
    let x ← t.L.get (← mzd_read_bits A j c k).toNat
    mzd_combine_n C' j 0 C'.width [(t.T, x)]
  pure (C', Function.update s.2 0 t)

/-- `_mzd_mul_m4rm(C, A, B, k, FALSE)` from line 1073 on, `/repo/test/github1_M4RI/src/m4ri/brilliantrussian.c:1073-1202`.
`k0` is the value that the floating-point computation (or the caller) proposes for `k`. -/
def addmul_m4rm_tables (junk : Nat → Nat → Nat) (align : Nat) (k0 : Int) (C' A B : Mzd) : C Mzd := do
  let k := clampK k0
  let kk := 8 * k
  let s ← forUp 0 ((A.nrows + 511) / 512) (C', mulTables junk align k B.ncols) fun g s =>
    forUp 0 (A.ncols / kk) s fun i s => mulBlock A B k g i s
  if A.ncols % kk ≠ 0 then do
    let s ← forUp (kk / k * (A.ncols / kk)) (A.ncols / k) s fun i s => mulRest A B (k * i) k s
    if A.ncols % k ≠ 0 then do
      let s ← mulRest A B (k * (A.ncols / k)) (A.ncols % k) s
      pure s.1
    else pure s.1
  else pure s.1

/-- The same for `_mzd_mul_m4rm(C, A, B, k, TRUE)`. -/
def mul_m4rm_tables (junk : Nat → Nat → Nat) (align : Nat) (k0 : Int) (C' A B : Mzd) : C Mzd := do
  let C' ← mzd_set_ui C' 0
  addmul_m4rm_tables junk align k0 C' A B

/-- What `_mzd_mul_m4rm` depends on besides its arguments: the address of the result (`align`), the contents of
uninitialised memory and the value of `k` that is computed in floating point. -/
structure MulEnv where
  junk : Nat → Nat → Nat
  align : Bool
  k0 : Int

/-- `mzd_mul_naive(C, A, B)`, `/repo/test/github1_M4RI/src/m4ri/mzd.c:1416-1432`; `tr` is `mzd_transpose(NULL, ·)`. -/
def mzd_mul_naive (tr : Mzd → C Mzd) (C' A B : Mzd) : C Mzd :=
  if C'.nrows ≠ A.nrows ∨ C'.ncols ≠ B.ncols then .error .abort
  else if B.ncols < 54 then do _mzd_mul_naive C' A (← tr B)
  else mzd_mul_va C' A B

/-- `mzd_mul_m4rm(NULL, A, B, k)`, `/repo/test/github1_M4RI/src/m4ri/brilliantrussian.c:998-1010` and `1033-1073` -/
def mzd_mul_m4rm (tr : Mzd → C Mzd) (e : MulEnv) (A B : Mzd) : C Mzd :=
  if A.ncols ≠ B.nrows then .error .abort
  else
    let C' := mzd_init A.nrows B.ncols
    if B.ncols < 54 ∨ A.nrows < 16 then mzd_mul_naive tr C' A B
    else mul_m4rm_tables e.junk e.align.toNat e.k0 C' A B

end WB.m4w
