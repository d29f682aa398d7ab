import Verif.Model.M4riEch

/-!
# M4RI: linear maps as programs of row additions

`/repo/test/github1_M4RI/src/m4ri/djb.c` and `include/m4ri/djb.h`, on words, in the same configuration as `M4riWord`; assertions are on.

The three arrays of a `djb_t` are one list of operations, the last operation first; that they grow with `realloc` is left out.  The memory of the heap
is modelled with its size: access behind it is the fault `oob`.  `malloc` and `realloc` never fail; `junk` is what new memory contains.  Sizes are natural numbers.
-/
namespace WB.m4w

open WB.cmp (Mem Mem2)

/-- The loop of `mzd_compare_rows_revlex`: the words `j - 1, …, 0` -/
def compareWords (A : Mzd) (a b : Nat) : Nat → C Bool
  | 0 => pure true
  | j + 1 => do
    let x ← A.get a j
    let y ← A.get b j
    if x < y then pure false
    else if x > y then pure true
    else compareWords A a b j

/-- `mzd_compare_rows_revlex`, `/repo/test/github1_M4RI/src/m4ri/djb.c:33-41` -/
def mzd_compare_rows_revlex (A : Mzd) (a b : Nat) : C Bool := compareWords A a b A.width

/-! ## The heap -/

/-- `heap_t`, `/repo/test/github1_M4RI/src/m4ri/djb.c:47-51`; `size` is the size of the memory `data`. -/
structure RowHeap where
  count : Nat
  data : Mem Nat

/-- `realloc` of the memory of a heap -/
def reallocRows (junk : Nat → Nat) (size : Nat) (d : Mem Nat) : Mem Nat := ⟨size, fun i => if i < d.size then d.cell i else junk i⟩

/-- `heap_init`, `/repo/test/github1_M4RI/src/m4ri/djb.c:61-74` -/
def heap_init (junk : Nat → Nat) : RowHeap := ⟨0, ⟨4, junk⟩⟩

/-- `heap_front`, `/repo/test/github1_M4RI/src/m4ri/djb.c:54`; it does not look at the number of elements. -/
def heap_front (h : RowHeap) : C Nat := h.data.get 0

/-- The loop of `heap_push`, `/repo/test/github1_M4RI/src/m4ri/djb.c:88-94`; the first argument bounds the number of rounds. -/
def siftUp (A : Mzd) (value : Nat) : Nat → Nat → Mem Nat → C (Mem Nat)
  | 0, _, _ => .error .diverge
  | fuel + 1, index, d =>
    if index = 0 then d.put index value
    else do
      let parent := (index - 1) / 2
      let p ← d.get parent
      if ← mzd_compare_rows_revlex A p value then d.put index value
      else do
        let d ← d.put index p
        siftUp A value fuel parent d

/-- `heap_push`, `/repo/test/github1_M4RI/src/m4ri/djb.c:77-95` -/
def heap_push (junk : Nat → Nat) (h : RowHeap) (value : Nat) (A : Mzd) : C RowHeap := do
  let data := if h.count = h.data.size then reallocRows junk (2 * h.data.size) h.data else h.data
  let data ← siftUp A value (h.count + 1) h.count data
  pure ⟨h.count + 1, data⟩

/-- The loop of `heap_pop`, `/repo/test/github1_M4RI/src/m4ri/djb.c:112-123`; the first argument bounds the number of rounds. -/
def siftDown (A : Mzd) (count temp : Nat) : Nat → Nat → Mem Nat → C (Mem Nat)
  | 0, _, _ => .error .diverge
  | fuel + 1, index, d =>
    let swap := 2 * index + 1
    if count ≤ swap then d.put index temp
    else do
      let swap ← (if swap + 1 < count then do
        if ← mzd_compare_rows_revlex A (← d.get (swap + 1)) (← d.get swap) then pure (swap + 1) else pure swap
        else pure swap : C Nat)
      let c ← d.get swap
      if ← mzd_compare_rows_revlex A temp c then d.put index temp
      else do
        let d ← d.put index c
        siftDown A count temp fuel swap d

/-- `heap_pop`, `/repo/test/github1_M4RI/src/m4ri/djb.c:98-124`; in an empty heap `--h->count` is a large number. -/
def heap_pop (junk : Nat → Nat) (h : RowHeap) (A : Mzd) : C RowHeap :=
  if h.count = 0 then .error .oob
  else do
    let count := h.count - 1
    let temp ← h.data.get count
    let data := if count ≤ h.data.size / 4 ∧ 4 < h.data.size then reallocRows junk (h.data.size / 2) h.data else h.data
    let data ← siftDown A count temp (count + 1) 0 data
    pure ⟨count, data⟩

/-! ## Programs -/

/-- `srctyp_t`, `/repo/test/github1_M4RI/include/m4ri/djb.h:26-29` -/
inductive SrcTyp
  | target
  | source
deriving DecidableEq

/-- `target[i]`, `source[i]` and `srctyp[i]` -/
structure DjbOp where
  target : Nat
  source : Nat
  typ : SrcTyp
deriving DecidableEq

/-- `djb_t`, `/repo/test/github1_M4RI/include/m4ri/djb.h:35-43` -/
structure Djb where
  nrows : Nat
  ncols : Nat
  ops : List DjbOp

/-- `djb_push_back`, `/repo/test/github1_M4RI/include/m4ri/djb.h:98-113` -/
def djb_push_back (z : Djb) (target source : Nat) (typ : SrcTyp) : C Djb :=
  if target < z.nrows ∧ (source < z.ncols ∨ typ ≠ .source) ∧ (source < z.nrows ∨ typ ≠ .target) then pure { z with ops := ⟨target, source, typ⟩ :: z.ops }
  else .error .abort

/-- The loop of `djb_compile`, `/repo/test/github1_M4RI/src/m4ri/djb.c:136-153`; the first argument bounds the number of rounds, `m` is the number of rows. -/
def djbLoop (junk : Nat → Nat) (m : Nat) : Nat → Nat → Mzd → RowHeap → Djb → C (Djb × Mzd)
  | 0, _, _, _, _ => .error .diverge
  | fuel + 1, n, A, h, z =>
    if n = 0 then pure (z, A)
    else do
      let temp ← heap_front h
      if !(← mzd_read_bit A temp (n - 1)) then djbLoop junk m fuel (n - 1) A h z
      else do
        let h ← heap_pop junk h A
        let both ← (if 2 ≤ m then do mzd_read_bit A (← heap_front h) (n - 1) else pure false : C Bool)
        if both then do
          let g ← heap_front h
          let A ← mzd_row_add_offset A temp g 0
          let z ← djb_push_back z temp g .target
          djbLoop junk m fuel n A (← heap_push junk h temp A) z
        else do
          let A ← mzd_write_bit A temp (n - 1) false
          let z ← djb_push_back z temp (n - 1) .source
          djbLoop junk m fuel n A (← heap_push junk h temp A) z

/-- `djb_compile`, `/repo/test/github1_M4RI/src/m4ri/djb.c:126-157`: the program, and what is left of `A`. -/
def djb_compile (junk : Nat → Nat) (A : Mzd) : C (Djb × Mzd) := do
  let h ← forUp 0 A.nrows (heap_init junk) fun i h => heap_push junk h i A
  djbLoop junk A.nrows ((A.ncols + 1) * (A.nrows + 1)) A.ncols A h ⟨A.nrows, A.ncols, []⟩

/-- The loop of `djb_apply_mzd`: `while (i > 0)`, from the last operation to the first -/
def applyOps (V : Mzd) : List DjbOp → Mzd → C Mzd
  | [], W => pure W
  | o :: ops, W => do
    let W ← (match o.typ with
      | .source => mzd_combine_n W o.target 0 W.width [(V, o.source)]
      | .target => mzd_combine_n W o.target 0 W.width [(W, o.source)] : C Mzd)
    applyOps V ops W

/-- `djb_apply_mzd`, `/repo/test/github1_M4RI/src/m4ri/djb.c:159-170` -/
def djb_apply_mzd (z : Djb) (W V : Mzd) : C Mzd :=
  if W.width ≠ V.width then .error .abort
  else applyOps V z.ops W

end WB.m4w
