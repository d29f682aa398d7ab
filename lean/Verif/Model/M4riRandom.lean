import Verif.Model.M4riMove

/-!
# M4RI: random bits, random words with `_MSC_VER`, and random matrices from a callback

`/repo/test/github1_M4RI/include/m4ri/misc.h:515-521`, `/repo/test/github1_M4RI/src/m4ri/misc.c:58-65` and `/repo/test/github1_M4RI/src/m4ri/mzd.c:1566-1576`.
-/
namespace WB.m4w

/-- `m4ri_coin_flip()`, `/repo/test/github1_M4RI/include/m4ri/misc.h:515-521`; `r` is the result of `rand`. -/
def m4ri_coin_flip (RAND_MAX r : Nat) : Nat := if r < RAND_MAX / 2 then 0 else 1

/-- `m4ri_random_word()` with `_MSC_VER`, `/repo/test/github1_M4RI/src/m4ri/misc.c:59-65`; `rnd k` is the result of call number `k` of `rand`, which has 15 bits there. -/
def m4ri_random_word_msc (rnd : Nat → BitVec 15) : Word := (List.range 8).foldl (fun a k => a ^^^ ((rnd k).setWidth 64 <<< (8 * k))) 0#64

/-- `mzd_randomize_custom(A, rc, data)`, `/repo/test/github1_M4RI/src/m4ri/mzd.c:1566-1576`; `rc` returns a word and changes what `data` points to, which does not include the matrix. -/
def mzd_randomize_custom {σ : Type} (A : Mzd) (rc : σ → Word × σ) (data : σ) : C (Mzd × σ) :=
  forUp 0 A.nrows (A, data) fun i s => do
    let s ← forUp 0 (A.width - 1) s fun j (s : Mzd × σ) => do pure (← s.1.put i j (rc s.2).1, (rc s.2).2)
    let a ← s.1.get i (A.width - 1)
    pure (← s.1.put i (A.width - 1) (a ^^^ ((a ^^^ (rc s.2).1) &&& A.high)), (rc s.2).2)

end WB.m4w
