import Verif.Model.M4riCodes

/-! # What C139 says: programs that load and unload the library and use its memory -/
namespace WB.m4a

/-- `s` is a state that a program reaches which calls `m4ri_init`, `m4ri_fini`, `m4ri_mmc_malloc` and `m4ri_mmc_free` in any order and frees each block at most once, with its size;
`l` are the addresses and the sizes of the blocks that it has not freed yet. -/
inductive LibRuns (th : Nat) : Lib → List (Nat × Nat) → Prop
  | start : LibRuns th .start []
  | init {s l} : LibRuns th s l → LibRuns th (m4ri_init s) l
  | fini {s s' l} : LibRuns th s l → m4ri_fini s = .ok s' → LibRuns th s' l
  | malloc {s l n p m} : LibRuns th s l → 0 < n → m4ri_mmc_malloc th n s.mmc = (p, m) → LibRuns th { s with mmc := m } ((p, n) :: l)
  | free {s l l' p n m} : LibRuns th s l → l.Perm ((p, n) :: l') → m4ri_mmc_free th p n s.mmc = .ok m → LibRuns th { s with mmc := m } l'

end WB.m4a
