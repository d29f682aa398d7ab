import Verif.Model.M4riMisc

/-!
# M4RI: printing a matrix

`/repo/test/github1_M4RI/src/m4ri/io.c:46-67` and `/repo/test/github1_M4RI/include/m4ri/io.h:68-72`.  What is written to the stream is a list of characters; writing does not fail.
-/
namespace WB.m4w

open WB.cmp (Mem)

/-- What `%s` prints: the characters before the end of the string; `n` bounds the places that are looked at. -/
def cstr (a : Mem Char) : Nat → Nat → C (List Char)
  | 0, _ => .error .oob
  | n + 1, j => do
    let c ← a.get j
    if c = '\x00' then pure [] else do pure (c :: (← cstr a n (j + 1)))

/-- One column of the last word, `/repo/test/github1_M4RI/src/m4ri/io.c:58-65` -/
def printBit (row : Word) (j : Nat) (out : List Char) : List Char :=
  let out := if j ≠ 0 ∧ j % 4 = 0 then out ++ [':'] else out
  out ++ [if row.getLsbD j then '1' else ' ']

/-- `mzd_fprint_row(stream, M, i)`, `/repo/test/github1_M4RI/src/m4ri/io.c:48-67`; `junk` is in `temp`, which has `SAFECHAR` (81) bytes.  Without columns the last word has the index -1. -/
def mzd_fprint_row (junk : Nat → Char) (M : Mzd) (i : Nat) : C (List Char) := do
  let s ← forUp 0 (M.width - 1) ((⟨81, junk⟩ : Mem Char), ['[']) fun j s => do
    let temp ← m4ri_word_to_str s.1 (← M.get i j) true
    pure (temp, s.2 ++ (← cstr temp 81 0) ++ ['|'])
  if M.width = 0 then .error .oob
  else do
    let row ← M.get i (M.width - 1)
    let wide := if M.ncols % 64 ≠ 0 then M.ncols % 64 else 64
    let out ← forUp 0 wide s.2 fun j out => pure (printBit row j out)
    pure (out ++ [']', '\n'])

/-- `mzd_fprint(stream, M)`, `/repo/test/github1_M4RI/include/m4ri/io.h:68-72` -/
def mzd_fprint (junk : Nat → Nat → Char) (M : Mzd) : C (List Char) := forUp 0 M.nrows [] fun i out => do pure (out ++ (← mzd_fprint_row (junk i) M i))

end WB.m4w
