import Verif.Model.M4riAlloc

/-!
# M4RI: the memory of the code book, and loading and unloading the library

`/repo/test/github1_M4RI/src/m4ri/graycode.c:54-79` and `/repo/test/github1_M4RI/src/m4ri/misc.c:75-91`, with the memory of `Model/M4riAlloc.lean`.  What the code book
contains is `m4ri_codebook` in `Model/M4riWord.lean`; here only its memory counts.  A pointer has 8 bytes, an `int` 4 and a `code` 16; `__M4RI_MAXKAY` is 16.
-/
namespace WB.m4a

/-- The memory, `m4ri_codebook` (0 is `NULL`), and the addresses `m4ri_codebook[k]`, `m4ri_codebook[k]->ord` and `m4ri_codebook[k]->inc` -/
structure Lib where
  mmc : Mmc
  book : Nat
  code : Nat → Nat
  ord : Nat → Nat
  inc : Nat → Nat

/-- The state when the program starts, `/repo/test/github1_M4RI/src/m4ri/graycode.c:29` -/
def Lib.start : Lib := ⟨.start, 0, fun _ => 0, fun _ => 0, fun _ => 0⟩

/-- `m4ri_mm_calloc`, which does not use the cache, `/repo/test/github1_M4RI/include/m4ri/misc.h:617-637` -/
def m4ri_mm_calloc (size : Nat) (s : Mmc) : Nat × Mmc := ((m4ri_mm_malloc size s.sys).1, { s with sys := (m4ri_mm_malloc size s.sys).2 })

/-- One code, `/repo/test/github1_M4RI/src/m4ri/graycode.c:61-63` -/
def buildOne (s : Lib) (k : Nat) : Lib :=
  let (c, m) := m4ri_mm_calloc 16 s.mmc
  let (o, m) := m4ri_mm_calloc (2 ^ k * 4) m
  let (i, m) := m4ri_mm_calloc (2 ^ k * 4) m
  ⟨m, s.book, fun j => if j = k then c else s.code j, fun j => if j = k then o else s.ord j, fun j => if j = k then i else s.inc j⟩

/-- `m4ri_build_all_codes()`, `/repo/test/github1_M4RI/src/m4ri/graycode.c:54-66` -/
def m4ri_build_all_codes (s : Lib) : Lib :=
  if s.book ≠ 0 then s
  else
    let (b, m) := m4ri_mm_calloc (17 * 8) s.mmc
    (List.range' 1 16).foldl buildOne { s with mmc := m, book := b }

/-- `m4ri_mm_free`, which does not use the cache -/
def freeSys (p : Nat) (m : Mmc) : C Mmc := do pure { m with sys := ← m4ri_mm_free p m.sys }

/-- An access to memory that is not allocated is a fault. -/
def touch (p : Nat) (m : Mmc) : C Unit := if m.sys.live p = none then .error .oob else pure ()

/-- One code, `/repo/test/github1_M4RI/src/m4ri/graycode.c:73-75` -/
def destroyOne (s : Lib) (i : Nat) (m : Mmc) : C Mmc := do
  touch s.book m
  touch (s.code i) m
  let m ← freeSys (s.inc i) m
  touch (s.code i) m
  let m ← freeSys (s.ord i) m
  freeSys (s.code i) m

/-- `m4ri_destroy_all_codes()`, `/repo/test/github1_M4RI/src/m4ri/graycode.c:68-79` -/
def m4ri_destroy_all_codes (s : Lib) : C Lib :=
  if s.book = 0 then pure s
  else do
    let m ← forUp 1 17 s.mmc fun i m => destroyOne s i m
    let m ← freeSys s.book m
    pure { s with mmc := m, book := 0 }

/-- `m4ri_init()`, `/repo/test/github1_M4RI/src/m4ri/misc.c:75-82` -/
def m4ri_init (s : Lib) : Lib := m4ri_build_all_codes s

/-- `m4ri_fini()`, `/repo/test/github1_M4RI/src/m4ri/misc.c:83-91` -/
def m4ri_fini (s : Lib) : C Lib := do
  let m ← m4ri_mmc_cleanup s.mmc
  m4ri_destroy_all_codes { s with mmc := m }

end WB.m4a
