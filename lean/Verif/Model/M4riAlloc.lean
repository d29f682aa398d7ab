import Verif.Model.Cmp

/-!
# M4RI: the two caches of memory

`/repo/test/github1_M4RI/src/m4ri/mzd.c:36-147` (the cache of matrix headers) and `src/m4ri/mmc.c` (the cache of blocks), one thread, both
caches enabled.  Addresses are natural numbers that the system never gives out twice, 0 is the null pointer; `malloc` never fails.  Access to
memory that is not allocated, and `free` of an address that is not allocated, is the fault `oob`.
-/
namespace WB.m4a

/-! ## Matrix headers -/

/-- A constant of `log2_floor`, `/repo/test/github1_M4RI/src/m4ri/mzd.c:54-55`: `(b[i], S[i])` -/
def log2Const : List (BitVec 64 × Nat) :=
  [(0x2#64, 1), (0xC#64, 2), (0xF0#64, 4), (0xFF00#64, 8), (0xFFFF0000#64, 16), (0xFFFFFFFF00000000#64, 32)]

/-- `log2_floor`, `/repo/test/github1_M4RI/src/m4ri/mzd.c:53-66`; the loop runs from the last constant to the first. -/
def log2_floor (v : BitVec 64) : Nat :=
  (log2Const.reverse.foldl (fun (s : BitVec 64 × Nat) c => if s.1 &&& c.1 ≠ 0#64 then (s.1 >>> c.2, s.2 ||| c.2) else s) (v, 0)).2

/-- `mzd_t_cache_t` without the headers themselves, `/repo/test/github1_M4RI/src/m4ri/mzd.c:37-46`; `none` is the null pointer. -/
structure Blk where
  prev : Option Nat
  next : Option Nat
  used : BitVec 64
deriving DecidableEq

/-- The address of a header: entry `e` of block `b`, or a header of its own. -/
inductive Hdr
  | entry (b e : Nat)
  | own (p : Nat)
deriving DecidableEq

/-- The blocks (block 0 is `mzd_cache`, the others come from the system), the headers that come from the system, the next address and `current_cache`. -/
structure Cache where
  blk : Nat → Option Blk
  own : Nat → Bool
  fresh : Nat
  cur : Nat

/-- The state when the program starts, `/repo/test/github1_M4RI/src/m4ri/mzd.c:49-50` -/
def Cache.start : Cache := ⟨fun b => if b = 0 then some ⟨none, none, 0#64⟩ else none, fun _ => false, 1, 0⟩

def Cache.get (s : Cache) (b : Nat) : C Blk := match s.blk b with
  | some x => .ok x
  | none => .error .oob

def Cache.set (s : Cache) (b : Nat) (x : Blk) : C Cache := match s.blk b with
  | some _ => .ok { s with blk := fun k => if k = b then some x else s.blk k }
  | none => .error .oob

/-- The search for a block that is not full, `/repo/test/github1_M4RI/src/m4ri/mzd.c:86-91`: `cache`, `current_cache` and `i`; the first argument bounds the number of rounds. -/
def notFull (s : Cache) : Nat → Option Nat → Nat → Nat → C (Option Nat × Nat × Nat)
  | 0, _, _, _ => .error .diverge
  | _ + 1, none, cur, i => pure (none, cur, i)
  | fuel + 1, some c, cur, i => do
    let x ← s.get c
    if x.used = BitVec.allOnes 64 then notFull s fuel x.next c (i + 1) else pure (some c, cur, i)

/-- An entry of the current block, `/repo/test/github1_M4RI/src/m4ri/mzd.c:106-110` -/
def takeEntry (s : Cache) : C (Hdr × Cache) := do
  let x ← s.get s.cur
  let e := log2_floor (~~~x.used)
  let s' ← s.set s.cur { x with used := x.used ||| (1#64 <<< e) }
  pure (.entry s.cur e, s')

/-- `mzd_t_malloc`, `/repo/test/github1_M4RI/src/m4ri/mzd.c:78-113` -/
def mzd_t_malloc (s : Cache) : C (Hdr × Cache) := do
  let x ← s.get s.cur
  if x.used = BitVec.allOnes 64 then do
    let (c, cur, i) ← notFull s (s.fresh + 1) (some 0) s.cur 0
    match c with
    | some c => takeEntry { s with cur := c }
    | none =>
      if i < 16 then do
        let s := { s with blk := fun k => if k = s.fresh then some ⟨some cur, none, 0#64⟩ else s.blk k, fresh := s.fresh + 1 }
        let y ← s.get cur
        let s ← s.set cur { y with next := some (s.fresh - 1) }
        takeEntry { s with cur := s.fresh - 1 }
      else pure (.own s.fresh, { s with own := fun k => if k = s.fresh then true else s.own k, fresh := s.fresh + 1, cur := cur })
  else takeEntry s

/-- The block becomes empty, `/repo/test/github1_M4RI/src/m4ri/mzd.c:124-135` -/
def dropBlock (s : Cache) (c : Nat) : C Cache :=
  if c = 0 then pure { s with cur := c }
  else do
    let x ← s.get c
    let some p := x.prev | .error .oob
    let s := if c = s.cur then { s with cur := p } else s
    let y ← s.get p
    let s ← s.set p { y with next := x.next }
    let s ← match x.next with
      | some n => do
        let z ← s.get n
        s.set n { z with prev := some p }
      | none => pure s
    pure { s with blk := fun k => if k = c then none else s.blk k }

/-- The search for the block of a header, `/repo/test/github1_M4RI/src/m4ri/mzd.c:120-140` -/
def freeIn (s : Cache) (M : Hdr) : Nat → Option Nat → C (Option Cache)
  | 0, _ => .error .diverge
  | _ + 1, none => pure none
  | fuel + 1, some c => do
    let x ← s.get c
    let next (_ : Unit) := freeIn s M fuel x.next
    match M with
    | .entry b e =>
      if b = c ∧ e < 64 then do
        let u := x.used &&& ~~~(1#64 <<< e)
        let s ← s.set c { x with used := u }
        if u = 0#64 then do pure (some (← dropBlock s c)) else pure (some s)
      else next ()
    | .own _ => next ()

/-- `mzd_t_free`, `/repo/test/github1_M4RI/src/m4ri/mzd.c:115-147` -/
def mzd_t_free (M : Hdr) (s : Cache) : C Cache := do
  match ← freeIn s M (s.fresh + 1) (some 0) with
  | some s => pure s
  | none => match M with
    | .own p => if s.own p then pure { s with own := fun k => if k = p then false else s.own k } else .error .oob
    | .entry _ _ => .error .oob

/-! ## Blocks of memory -/

/-- The memory of the system: the size of each block that is allocated, and the next address. -/
structure Sys where
  live : Nat → Option Nat
  next : Nat

/-- `m4ri_mm_malloc`, `/repo/test/github1_M4RI/include/m4ri/misc.h:683-698` -/
def m4ri_mm_malloc (size : Nat) (s : Sys) : Nat × Sys := (s.next, ⟨fun p => if p = s.next then some size else s.live p, s.next + 1⟩)

/-- `m4ri_mm_free`, `/repo/test/github1_M4RI/include/m4ri/misc.h:710-716` -/
def m4ri_mm_free (p : Nat) (s : Sys) : C Sys :=
  if p = 0 then pure s
  else match s.live p with
    | some _ => pure { s with live := fun q => if q = p then none else s.live q }
    | none => .error .oob

/-- The state: the memory of the system, `m4ri_mmc_cache` and the variable `j` of `m4ri_mmc_free`. -/
structure Mmc where
  sys : Sys
  size : Nat → Nat
  data : Nat → Nat
  j : Nat

/-- The state when the program starts -/
def Mmc.start : Mmc := ⟨⟨fun _ => none, 1⟩, fun _ => 0, fun _ => 0, 0⟩

/-- The first of the 16 entries with a size, `/repo/test/github1_M4RI/src/m4ri/mmc.c:55-62`, `93-99` -/
def Mmc.find (s : Mmc) (size : Nat) : Option Nat := (List.range 16).find? fun i => s.size i == size

def Mmc.put (s : Mmc) (i size data : Nat) : Mmc := { s with size := fun k => if k = i then size else s.size k, data := fun k => if k = i then data else s.data k }

/-- `m4ri_mmc_malloc`, `/repo/test/github1_M4RI/src/m4ri/mmc.c:44-77`; `threshold` is `__M4RI_MMC_THRESHOLD`. -/
def m4ri_mmc_malloc (threshold size : Nat) (s : Mmc) : Nat × Mmc :=
  let (ret, s) := if size ≤ threshold then match s.find size with
      | some i => (s.data i, s.put i 0 0)
      | none => (0, s)
    else (0, s)
  if ret ≠ 0 then (ret, s)
  else let (p, sys) := m4ri_mm_malloc size s.sys; (p, { s with sys := sys })

/-- `m4ri_mmc_free`, `/repo/test/github1_M4RI/src/m4ri/mmc.c:85-117` -/
def m4ri_mmc_free (threshold condemned size : Nat) (s : Mmc) : C Mmc :=
  if size < threshold then match s.find 0 with
    | some i => pure (s.put i size condemned)
    | none => do
      let sys ← m4ri_mm_free (s.data s.j) s.sys
      pure { ({ s with sys := sys } : Mmc).put s.j size condemned with j := (s.j + 1) % 16 }
  else do pure { s with sys := (← m4ri_mm_free condemned s.sys) }

/-- `m4ri_mmc_cleanup`, `/repo/test/github1_M4RI/src/m4ri/mmc.c:126-144` -/
def m4ri_mmc_cleanup (s : Mmc) : C Mmc :=
  forUp 0 16 s fun i s => do
    let sys ← if s.size i ≠ 0 then m4ri_mm_free (s.data i) s.sys else pure s.sys
    pure { s with sys := sys, size := fun k => if k = i then 0 else s.size k }

end WB.m4a
