import Verif.Model.M4riWord
import Verif.Model.Cmp

/-!
# M4RI: reversing, spreading and packing the bits of a word, and a word as text

`/repo/test/github1_M4RI/include/m4ri/misc.h:321-416` and `/repo/test/github1_M4RI/src/m4ri/misc.c:45-57`.  A shift by a negative number or by 64 or more is the fault `overflow`.
-/
namespace WB.m4w

open WB.cmp (Mem)

/-- `m4ri_swap_bits(v)`, `/repo/test/github1_M4RI/include/m4ri/misc.h:321-329` -/
def m4ri_swap_bits (v : Word) : Word :=
  let v := ((v >>> 1) &&& 0x5555555555555555#64) ||| ((v &&& 0x5555555555555555#64) <<< 1)
  let v := ((v >>> 2) &&& 0x3333333333333333#64) ||| ((v &&& 0x3333333333333333#64) <<< 2)
  let v := ((v >>> 4) &&& 0x0F0F0F0F0F0F0F0F#64) ||| ((v &&& 0x0F0F0F0F0F0F0F0F#64) <<< 4)
  let v := ((v >>> 8) &&& 0x00FF00FF00FF00FF#64) ||| ((v &&& 0x00FF00FF00FF00FF#64) <<< 8)
  let v := ((v >>> 16) &&& 0x0000FFFF0000FFFF#64) ||| ((v &&& 0x0000FFFF0000FFFF#64) <<< 16)
  (v >>> 32) ||| (v <<< 32)

/-- The cases `k - 1`, …, 0 of `m4ri_shrink_bits`, each of which falls through to the next, `/repo/test/github1_M4RI/include/m4ri/misc.h:347-362` -/
def shrinkFrom (src : Word) (Q : Mem Nat) (base : Nat) : Nat → Word → C Word
  | 0, dst => pure dst
  | k + 1, dst => do
    let q ← Q.get k
    if q < base + k ∨ base + 64 ≤ q then .error .overflow
    else shrinkFrom src Q base k (dst ||| ((src &&& (1#64 <<< (q - base))) >>> (q - k - base)))

/-- `m4ri_shrink_bits(from, Q, length, base)`, `/repo/test/github1_M4RI/include/m4ri/misc.h:344-368` -/
def m4ri_shrink_bits (src : Word) (Q : Mem Nat) (length base : Nat) : C Word :=
  if 1 ≤ length ∧ length ≤ 16 then shrinkFrom src Q base length 0#64 else .error .abort

/-- The cases `k - 1`, …, 0 of `m4ri_spread_bits`, `/repo/test/github1_M4RI/include/m4ri/misc.h:390-405` -/
def spreadFrom (src : Word) (Q : Mem Nat) (base : Nat) : Nat → Word → C Word
  | 0, dst => pure dst
  | k + 1, dst => do
    let q ← Q.get k
    if q < base + k ∨ base + k + 64 ≤ q then .error .overflow
    else spreadFrom src Q base k (dst ||| ((src &&& (1#64 <<< k)) <<< (q - k - base)))

/-- `m4ri_spread_bits(from, Q, length, base)`, `/repo/test/github1_M4RI/include/m4ri/misc.h:387-411` -/
def m4ri_spread_bits (src : Word) (Q : Mem Nat) (length base : Nat) : C Word :=
  if 1 ≤ length ∧ length ≤ 16 then spreadFrom src Q base length 0#64 else .error .abort

/-- One bit of `m4ri_word_to_str`, `/repo/test/github1_M4RI/src/m4ri/misc.c:48-53`; `s` is the buffer and `j`. -/
def strBit (data : Word) (colon : Bool) (i : Nat) (s : Mem Char × Nat) : C (Mem Char × Nat) := do
  let s ← (if colon ∧ i % 4 = 0 ∧ i ≠ 0 then do pure (← s.1.put s.2 ':', s.2 + 1) else pure s : C (Mem Char × Nat))
  pure (← s.1.put s.2 (if data.getLsbD i then '1' else ' '), s.2 + 1)

/-- `m4ri_word_to_str(destination, data, colon)`, `/repo/test/github1_M4RI/src/m4ri/misc.c:45-57` -/
def m4ri_word_to_str (destination : Mem Char) (data : Word) (colon : Bool) : C (Mem Char) := do
  let s ← forUp 0 64 (destination, 0) fun i s => strBit data colon i s
  s.1.put s.2 '\x00'

end WB.m4w
