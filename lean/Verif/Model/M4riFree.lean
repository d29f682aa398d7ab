import Verif.Model.M4riAlloc
import Verif.Model.M4riLayout

/-!
# M4RI: the memory that matrices take from the cache and give back

`/repo/test/github1_M4RI/src/m4ri/mzd.c:149-194`, `231-282`; the headers themselves are those of `Model/M4riAlloc.lean` and left out here.  A word has 8 bytes,
a pointer 8 and an `mzd_block_t` 24.
-/
namespace WB.m4a

/-- The fields of `mzd_t` that `mzd_free` uses; `ent i` is `(blocks[i].size, blocks[i].begin)`. -/
structure Mat where
  nrows : Nat
  rows : Nat
  blocks : Nat
  owns : Bool
  ent : Nat → Nat × Nat

/-- The blocks, the last one first, `/repo/test/github1_M4RI/src/m4ri/mzd.c:177-183` -/
def initBlocks (threshold full : Nat) : Nat → Nat → (Nat → Nat × Nat) → Mmc → (Nat → Nat × Nat) × Mmc
  | 0, _, ent, s => (ent, s)
  | i + 1, words, ent, s =>
    let (p, s) := m4ri_mmc_malloc threshold (words * 8) s
    initBlocks threshold full i full (fun k => if k = i then (words * 8, p) else ent k) s

/-- `mzd_init`, `/repo/test/github1_M4RI/src/m4ri/mzd.c:149-194`; `m4ri_mmc_calloc` clears the entries. -/
def mzd_init (threshold r c : Nat) (s : Mmc) : Mat × Mmc :=
  let (rows, s) := m4ri_mmc_malloc threshold ((r + 1) * 8) s
  if r ≠ 0 ∧ c ≠ 0 then
    let width := (c + 63) / 64
    let rowstride := if width < 1 ∨ width % 2 = 0 then width else width + 1
    let blockrows : Nat := 2 ^ m4l.blockLog (2 ^ 27 / rowstride)
    let nblocks := (r + blockrows - 1) / blockrows
    let (blocks, s) := m4ri_mmc_malloc threshold ((nblocks + 1) * 24) s
    let (ent, s) := initBlocks threshold (blockrows * rowstride) nblocks ((r - (nblocks - 1) * blockrows) * rowstride) (fun _ => (0, 0)) s
    (⟨r, rows, blocks, true, ent⟩, s)
  else (⟨r, rows, 0, true, fun _ => (0, 0)⟩, s)

/-- `mzd_init_window`, `/repo/test/github1_M4RI/src/m4ri/mzd.c:231-269`, for a window of `n` rows that starts in block `skipped` -/
def mzd_init_window (threshold n skipped : Nat) (M : Mat) (s : Mmc) : Mat × Mmc :=
  let ent := fun k => M.ent (skipped + k)
  if n ≠ 0 then
    let (rows, s) := m4ri_mmc_malloc threshold ((n + 1) * 8) s
    (⟨n, rows, M.blocks + 24 * skipped, false, ent⟩, s)
  else (⟨n, 0, M.blocks + 24 * skipped, false, ent⟩, s)

/-- The loop over the blocks, `/repo/test/github1_M4RI/src/m4ri/mzd.c:276-278`; the first argument bounds the number of rounds. -/
def freeBlocks (threshold : Nat) (A : Mat) : Nat → Nat → Mmc → C (Nat × Mmc)
  | 0, _, _ => .error .diverge
  | fuel + 1, i, s =>
    if (A.ent i).1 ≠ 0 then do
      let s ← m4ri_mmc_free threshold (A.ent i).2 (A.ent i).1 s
      freeBlocks threshold A fuel (i + 1) s
    else pure (i, s)

/-- `mzd_free`, `/repo/test/github1_M4RI/src/m4ri/mzd.c:271-282` -/
def mzd_free (threshold : Nat) (A : Mat) (s : Mmc) : C Mmc := do
  let s ← (if A.rows ≠ 0 then m4ri_mmc_free threshold A.rows ((A.nrows + 1) * 8) s else pure s : C Mmc)
  if A.blocks ≠ 0 ∧ A.owns = true then do
    let (i, s) ← freeBlocks threshold A (A.nrows + 1) 0 s
    m4ri_mmc_free threshold A.blocks ((i + 1) * 24) s
  else pure s

end WB.m4a
