import Mathlib.Data.Finset.Card
import Verif.Model.M4riAlloc

/-!
# Specification vocabulary for M4RI's caches of memory: what programs may do with them
-/
namespace WB.m4a

/-- The states that a program can reach which only frees headers that it holds, with the set of headers it holds. -/
inductive Holds : Cache → Finset Hdr → Prop
  | start : Holds .start ∅
  | malloc {s s' : Cache} {L : Finset Hdr} {p : Hdr} : Holds s L → mzd_t_malloc s = .ok (p, s') → Holds s' (insert p L)
  | free {s s' : Cache} {L : Finset Hdr} {p : Hdr} : Holds s L → p ∈ L → mzd_t_free p s = .ok s' → Holds s' (L.erase p)

/-- The states that a program can reach which only asks for blocks that are not empty and only frees blocks that it holds, with the size that it asked for.
`L p` is the size of the block at `p` if the program holds it. -/
inductive HoldsB (threshold : Nat) : Mmc → (Nat → Option Nat) → Prop
  | start : HoldsB threshold .start fun _ => none
  | malloc {s s' : Mmc} {L : Nat → Option Nat} {n p : Nat} : HoldsB threshold s L → 0 < n → m4ri_mmc_malloc threshold n s = (p, s') → HoldsB threshold s' fun q => if q = p then some n else L q
  | free {s s' : Mmc} {L : Nat → Option Nat} {n p : Nat} : HoldsB threshold s L → L p = some n → m4ri_mmc_free threshold p n s = .ok s' → HoldsB threshold s' fun q => if q = p then none else L q
  | cleanup {s s' : Mmc} {L : Nat → Option Nat} : HoldsB threshold s L → m4ri_mmc_cleanup s = .ok s' → HoldsB threshold s' L

end WB.m4a
