import Verif.Model.M4riWord

/-!
# M4RI: the reduced echelon form and the inverse

`/repo/test/github1_M4RI/src/m4ri/{brilliantrussian,mzd,graycode,echelonform}.c`, `include/m4ri/{mzd,misc,graycode}.h`, in the same
configuration as `M4riWord`.  `mzd_echelonize_m4ri(A, TRUE, k)` calls `_mzd_echelonize_m4ri` without the heuristic, so that no
density is computed and no PLUQ decomposition is used.  The six tables are rows of one matrix in the source; here they are six
matrices of `2^k` rows.  The loop over the columns has a bound on the number of rounds; a run that exceeds it is reported as `diverge`.
-/
namespace WB.m4w

open WB.cmp (Mem Mem2)

/-! ## Rows -/

/-- `mzd_row_swap`, `/repo/test/github1_M4RI/include/m4ri/mzd.h:381-404`, `414` -/
def mzd_row_swap (M : Mzd) (rowa rowb : Nat) : C Mzd :=
  if rowa = rowb ∨ M.width = 0 then pure M
  else do
    let width := M.width - 1
    let M ← forUp 0 width M fun i M => do
      let tmp ← M.get rowa i
      let M ← M.put rowa i (← M.get rowb i)
      M.put rowb i tmp
    let tmp := ((← M.get rowa width) ^^^ (← M.get rowb width)) &&& M.high
    let M ← M.put rowa width ((← M.get rowa width) ^^^ tmp)
    M.put rowb width ((← M.get rowb width) ^^^ tmp)

/-- `mzd_row_add_offset`, `/repo/test/github1_M4RI/include/m4ri/mzd.h:664-712`: the unused bits that were changed on the way are
restored at the end. -/
def mzd_row_add_offset (M : Mzd) (dstrow srcrow coloffset : Nat) : C Mzd :=
  if M.nrows ≤ dstrow ∨ M.nrows ≤ srcrow ∨ M.ncols ≤ coloffset then .error .abort
  else do
    let startblock := coloffset / 64
    let wide := M.width - startblock - 1
    let M ← M.put dstrow startblock
      ((← M.get dstrow startblock) ^^^ ((← M.get srcrow startblock) &&& rightMask (64 - coloffset % 64)))
    let M ← forUp 0 wide M fun i M => do
      M.put dstrow (startblock + 1 + i) ((← M.get dstrow (startblock + 1 + i)) ^^^ (← M.get srcrow (startblock + 1 + i)))
    M.put dstrow (startblock + wide) ((← M.get dstrow (startblock + wide)) ^^^ ((← M.get srcrow (startblock + wide)) &&& ~~~M.high))

/-- `__M4RI_GET_BIT`, `/repo/test/github1_M4RI/include/m4ri/misc.h:226` -/
def getBit (w : Word) (spot : Nat) : Bool := ((w >>> spot) &&& 1#64) != 0#64

/-! ## An identity matrix in the next columns -/

/-- One column of `_mzd_gauss_submatrix_full`, `/repo/test/github1_M4RI/src/m4ri/brilliantrussian.c:53-76`; the state is the matrix
and `found`. -/
def gaussCol (r c end_row start_row j : Nat) (A : Mzd) : C (Mzd × Bool) :=
  forBrk start_row end_row (A, false) fun i (s : Mzd × Bool) => do
    let tmp ← mzd_read_bits s.1 i c (j - c + 1)
    if tmp ≠ 0#64 then do
      let A ← forUp 0 (j - c) s.1 fun l A => if getBit tmp l then mzd_row_add_offset A i (r + l) (c + l) else pure A
      if ← mzd_read_bit A i j then do
        let A ← mzd_row_swap A i start_row
        let A ← forUp r start_row A fun l A => do
          if ← mzd_read_bit A l j then mzd_row_add_offset A l start_row j else pure A
        pure (.stop (A, true))
      else pure (.next (A, false))
    else pure (.next s)

/-- `_mzd_gauss_submatrix_full`, `/repo/test/github1_M4RI/src/m4ri/brilliantrussian.c:48-84`; the state is the matrix, `start_row` and
`j`. -/
def gauss_submatrix_full (A : Mzd) (r c end_row k : Nat) : C (Mzd × Nat) := do
  let s ← forBrk c (c + k) (A, r, c) fun j (s : Mzd × Nat × Nat) => do
    let x ← gaussCol r c end_row s.2.1 j s.1
    if x.2 then pure (.next (x.1, s.2.1 + 1, j + 1)) else pure (.stop (x.1, s.2.1, j))
  pure (s.1, s.2.2 - c)

/-! ## The other rows -/

/-- The two rows `r` and `r + 1` in `mzd_process_rows` when there is one column,
`/repo/test/github1_M4RI/src/m4ri/brilliantrussian.c:237-281` -/
def process_pair_one (M : Mzd) (r startcol : Nat) (T : Mzd) : C Mzd := do
  let block := startcol / 64
  let wide := M.width - block
  let bm : Word := 1#64 <<< (startcol % 64)
  let b0 := (← M.get r block) &&& bm
  let b1 := (← M.get (r + 1) block) &&& bm
  if b0 &&& b1 ≠ 0#64 then do
    let M ← mzd_combine_n M r block wide [(T, 1)]
    mzd_combine_n M (r + 1) block wide [(T, 1)]
  else if b0 ≠ 0#64 then mzd_combine_n M r block wide [(T, 1)]
  else if b1 ≠ 0#64 then mzd_combine_n M (r + 1) block wide [(T, 1)]
  else pure M

/-- One row in `mzd_process_rows`, `/repo/test/github1_M4RI/src/m4ri/brilliantrussian.c:334-350` -/
def process_row (M : Mzd) (r startcol k : Nat) (t : Tab) : C Mzd := do
  let x0 ← t.L.get (← mzd_read_bits M r startcol k).toNat
  mzd_combine_n M r (startcol / 64) (M.width - startcol / 64) [(t.T, x0)]

/-- Two rows in `mzd_process_rows`, `/repo/test/github1_M4RI/src/m4ri/brilliantrussian.c:310-330` -/
def process_pair (M : Mzd) (r startcol k : Nat) (t : Tab) : C Mzd := do
  let x0 ← t.L.get (← mzd_read_bits M r startcol k).toNat
  let x1 ← t.L.get (← mzd_read_bits M (r + 1) startcol k).toNat
  let M ← mzd_combine_n M r (startcol / 64) (M.width - startcol / 64) [(t.T, x0)]
  mzd_combine_n M (r + 1) (startcol / 64) (M.width - startcol / 64) [(t.T, x1)]

/-- `mzd_process_rows`, `/repo/test/github1_M4RI/src/m4ri/brilliantrussian.c:226-354` -/
def mzd_process_rows (M : Mzd) (startrow stoprow startcol k : Nat) (t : Tab) : C Mzd := do
  let M ← forUp 0 ((stoprow - startrow) / 2) M fun p M =>
    if k = 1 then process_pair_one M (startrow + 2 * p) startcol t.T else process_pair M (startrow + 2 * p) startcol k t
  forUp (startrow + 2 * ((stoprow - startrow) / 2)) stoprow M fun r M => process_row M r startcol k t

/-- The numbers of columns that the tables handle, `/repo/test/github1_M4RI/src/m4ri/brilliantrussian.c:362-363`, `396-400`, `438-443`,
`483-489`, `535-542` and again `704-710`, `726-731`, `745-749`, `762-765`, `777-778` -/
def parts : Nat → Nat → List Nat
  | 2, k => [k / 2, k - k / 2]
  | 3, k => [k / 3 + (if 2 ≤ k % 3 then 1 else 0), k / 3 + (if 1 ≤ k % 3 then 1 else 0), k / 3]
  | 4, k => [k / 4 + (if 3 ≤ k % 4 then 1 else 0), k / 4 + (if 2 ≤ k % 4 then 1 else 0), k / 4 + (if 1 ≤ k % 4 then 1 else 0), k / 4]
  | 5, k => [k / 5 + (if 4 ≤ k % 5 then 1 else 0), k / 5 + (if 3 ≤ k % 5 then 1 else 0), k / 5 + (if 2 ≤ k % 5 then 1 else 0),
      k / 5 + (if 1 ≤ k % 5 then 1 else 0), k / 5]
  | 6, k => [k / 6 + (if 5 ≤ k % 6 then 1 else 0), k / 6 + (if 4 ≤ k % 6 then 1 else 0), k / 6 + (if 3 ≤ k % 6 then 1 else 0),
      k / 6 + (if 2 ≤ k % 6 then 1 else 0), k / 6 + (if 1 ≤ k % 6 then 1 else 0), k / 6]
  | _, _ => []

/-- `x0 = L0[bits & ka_bm]; bits >>= ka; x1 = L1[bits & kb_bm]; …` -/
def lookups (bits : Word) : List (Nat × Tab) → C (List (Mzd × Nat))
  | [] => pure []
  | (ka, t) :: ts => do
    let x ← t.L.get (bits &&& leftMask ka).toNat
    let xs ← lookups (bits >>> ka) ts
    pure ((t.T, x) :: xs)

/-- `mzd_process_rows2` … `mzd_process_rows6`, `/repo/test/github1_M4RI/src/m4ri/brilliantrussian.c:356-583` -/
def mzd_process_rows_n (M : Mzd) (startrow stoprow startcol k : Nat) (ts : List (Nat × Tab)) : C Mzd :=
  forUp startrow stoprow M fun r M => do
    let bits ← mzd_read_bits M r startcol k
    let xs ← lookups bits ts
    if xs.all (fun x => x.2 == 0) then pure M
    else mzd_combine_n M r (startcol / 64) (M.width - startcol / 64) xs

/-! ## The next pivot -/

/-- `m4ri_lesser_LSB`, `/repo/test/github1_M4RI/include/m4ri/misc.h:466-475` -/
def m4ri_lesser_LSB (a b : Word) : Bool := !(if b != 0#64 then (((a - 1#64) ^^^ a) &&& b) != 0#64 else a == 0#64)

/-- The loops that look for the lowest bit of `data`.  If there is none, the result is not assigned. -/
def firstBit (data : Word) (n : Nat) : C Nat :=
  match (List.range n).find? (fun l => getBit data l) with
  | some l => pure l
  | none => .error .oob

/-- The search for the row with the lowest bit in a word, `/repo/test/github1_M4RI/src/m4ri/mzd.c:2067-2076`, `2094-2102`, `2121-2129`;
`spot` is the bit at which the search stops.  The state is `(row_candidate, data)`. -/
def candidate (A : Mzd) (start_row wi : Nat) (mask : Word) (spot : Nat) (s : Nat × Word) : C (Nat × Word) :=
  forBrk start_row A.nrows s fun i (s : Nat × Word) => do
    let curr := (← A.get i wi) &&& mask
    if m4ri_lesser_LSB curr s.2 then
      if getBit curr spot then pure (.stop (i, curr)) else pure (.next (i, curr))
    else pure (.next s)

/-- `mzd_find_pivot`, `/repo/test/github1_M4RI/src/m4ri/mzd.c:2032-2148`: the result is `(*r, *c)`. -/
def mzd_find_pivot (A : Mzd) (start_row start_col : Nat) : C (Option (Nat × Nat)) := do
  if A.ncols - start_col < 64 then do
    if start_col < A.ncols then do
      let length := min 64 (A.ncols - start_col)
      let s ← forUp start_row A.nrows ((0, 0#64) : Nat × Word) fun i (s : Nat × Word) => do
        let curr ← mzd_read_bits A i start_col length
        if m4ri_lesser_LSB curr s.2 then pure (i, curr) else pure s
      if s.2 ≠ 0#64 then do
        let l ← firstBit s.2 length
        pure (some (s.1, start_col + l))
      else pure none
    else pure none
  else do
    let bit_offset := start_col % 64
    let word_offset := start_col / 64
    let s ← candidate A start_row word_offset (rightMask (64 - bit_offset)) bit_offset (0, 0#64)
    if s.2 ≠ 0#64 then do
      let l ← firstBit (s.2 >>> bit_offset) (64 - bit_offset)
      pure (some (s.1, start_col + l))
    else do
      let m ← forRet (word_offset + 1) (A.width - 1) s fun wi (s : Nat × Word) => do
        let s ← candidate A start_row wi ffff 0 s
        if s.2 ≠ 0#64 then do
          let l ← firstBit s.2 64
          pure (.stop (s.1, wi * 64 + l))
        else pure (.next s)
      match m with
      | .stop x => pure (some x)
      | .next s => do
        let end_offset := if A.ncols % 64 ≠ 0 then A.ncols % 64 else 64
        let wi := A.width - 1
        let s ← candidate A start_row wi (leftMask (end_offset % 64)) 0 s
        if s.2 ≠ 0#64 then do
          let l ← firstBit s.2 end_offset
          pure (some (s.1, wi * 64 + l))
        else pure none

/-! ## The reduced echelon form -/

/-- `log2_floor` of a number below `2^31`, `/repo/test/github1_M4RI/include/m4ri/graycode.h:135-148` -/
def log2_floor (v : Nat) : Nat :=
  (([(0xFFFF0000, 16), (0xFF00, 8), (0xF0, 4), (0xC, 2), (0x2, 1)] : List (Nat × Nat)).foldl
    (fun (s : Nat × Nat) (p : Nat × Nat) => if s.1 &&& p.1 ≠ 0 then (s.1 >>> p.2, s.2 ||| p.2) else s) (v, 0)).2

/-- `m4ri_opt_k(a, b, 0)`, `/repo/test/github1_M4RI/src/m4ri/graycode.c:82-86`; the product with 0.75 is exact. -/
def m4ri_opt_k (a b : Nat) : Nat := min 16 (max 1 (3 * (1 + log2_floor (min a b)) / 4))

/-- The value of `k` that is used when the caller gives none, `/repo/test/github1_M4RI/src/m4ri/brilliantrussian.c:624-630`, with
`__M4RI_CPU_L3_CACHE == 262144` (`/repo/test/github1_M4RI/include/m4ri/m4ri_config.h:111`).  The comparison
`0.75 * 2^k * ncols > 131072` is exact. -/
def echK (nrows ncols : Nat) : Nat :=
  let k := m4ri_opt_k nrows ncols
  let k := if 7 ≤ k then 7 else k
  if 4 * 131072 < 3 * 2 ^ k * ncols then k - 1 else k

/-- The tables `T0, L0, …, T5, L5`, `/repo/test/github1_M4RI/src/m4ri/brilliantrussian.c:634-655` -/
def echTables (k ncols : Nat) (_z : Nat) : Tab := ⟨mzd_init_window (mzd_init (2 ^ k) (ncols + 64)) 0 ncols, ⟨2 ^ k, fun _ => 0⟩⟩

/-- `mzd_make_table(A, r, c, ka, T0, L0); mzd_make_table(A, r + ka, c, kb, T1, L1); …` -/
def makeTables (A : Mzd) (c : Nat) : List Nat → Nat → Nat → (Nat → Tab) → C (Nat → Tab)
  | [], _, _, T => pure T
  | ka :: ks, z, r, T => do
    let t ← mzd_make_table A r c ka (T z)
    makeTables A c ks (z + 1) (r + ka) (Function.update T z t)

/-- The `n` tables for `kbar` columns and their use, `/repo/test/github1_M4RI/src/m4ri/brilliantrussian.c:704-723` etc. -/
def echUse (n kk : Nat) (A : Mzd) (r c kbar : Nat) (T : Nat → Tab) : C (Mzd × (Nat → Tab)) := do
  let T ← makeTables A c (parts n kbar) 0 r T
  let ts := (parts n kbar).zipIdx.map fun p => (p.1, T p.2)
  let A ← (if kbar = kk then mzd_process_rows_n A (r + kbar) A.nrows c kbar ts else pure A)
  let A ← mzd_process_rows_n A 0 r c kbar ts
  pure (A, T)

/-- `/repo/test/github1_M4RI/src/m4ri/brilliantrussian.c:703-796` with `full` -/
def echUpdate (k kk : Nat) (A : Mzd) (r c kbar : Nat) (T : Nat → Tab) : C (Mzd × (Nat → Tab)) :=
  if 5 * k < kbar then echUse 6 kk A r c kbar T
  else if 4 * k < kbar then echUse 5 kk A r c kbar T
  else if 3 * k < kbar then echUse 4 kk A r c kbar T
  else if 2 * k < kbar then echUse 3 kk A r c kbar T
  else if k < kbar then echUse 2 kk A r c kbar T
  else if 0 < kbar then do
    let t ← mzd_make_table A r c kbar (T 0)
    let A ← (if kbar = kk then mzd_process_rows A (r + kbar) A.nrows c kbar t else pure A)
    let A ← mzd_process_rows A 0 r c kbar t
    pure (A, Function.update T 0 t)
  else pure (A, T)

/-- The state of the loop of `_mzd_echelonize_m4ri`. -/
structure Ech where
  A : Mzd
  T : Nat → Tab
  r : Nat
  c : Nat
  kk : Nat

/-- The loop of `_mzd_echelonize_m4ri`, `/repo/test/github1_M4RI/src/m4ri/brilliantrussian.c:672-815`, with at most `fuel` rounds. -/
def echLoop (k : Nat) : Nat → Ech → C (Mzd × Nat)
  | 0, _ => .error .diverge
  | fuel + 1, s =>
    if s.c < s.A.ncols then do
      let kk := if s.A.ncols < s.c + s.kk then s.A.ncols - s.c else s.kk
      let x ← gauss_submatrix_full s.A s.r s.c s.A.nrows kk
      let kbar := x.2
      let y ← echUpdate k kk x.1 s.r s.c kbar s.T
      let r := s.r + kbar
      let c := s.c + kbar
      if kk ≠ kbar then do
        match ← mzd_find_pivot y.1 r c with
        | some (rbar, cbar) => do
          let A ← mzd_row_swap y.1 r rbar
          echLoop k fuel ⟨A, y.2, r, cbar, kk⟩
        | none => pure (y.1, r)
      else echLoop k fuel ⟨y.1, y.2, r, c, kk⟩
    else pure (s.A, s.r)

/-- `mzd_echelonize_m4ri(A, TRUE, k)`, `/repo/test/github1_M4RI/src/m4ri/echelonform.c:34-36` and `brilliantrussian.c:585-836`: the
reduced matrix and the number that is returned. -/
def mzd_echelonize_m4ri (fuel : Nat) (A : Mzd) (k : Nat) : C (Mzd × Nat) :=
  let k := if k = 0 then echK A.nrows A.ncols else k
  echLoop k fuel ⟨A, echTables k A.ncols, 0, 0, 6 * k⟩

/-! ## The inverse -/

/-- `mzd_inv_m4ri(NULL, A, k)`, `/repo/test/github1_M4RI/src/m4ri/brilliantrussian.c:969-995`; `k` is not used.  `AW` and `BW` are windows
of `C`. -/
def mzd_inv_m4ri (fuel : Nat) (A : Mzd) : C Mzd :=
  if A.nrows ≠ A.ncols then .error .abort
  else do
    let B := mzd_init A.nrows A.ncols
    let n := A.nrows
    let nr := 64 * A.width
    let C' := mzd_init n (2 * nr)
    let AW ← mzd_copy (mzd_init_window C' 0 n) A
    let C' := { C' with mem := AW.mem }
    let BW ← mzd_set_ui (mzd_init_window C' nr (nr + n)) 1
    let C' := { C' with mem := BW.mem }
    let x ← mzd_echelonize_m4ri fuel C' 0
    mzd_copy B (mzd_init_window x.1 nr (nr + n))

end WB.m4w
