import Mathlib.Data.Matrix.Mul
import Mathlib.Data.ZMod.Basic
import Mathlib.Algebra.BigOperators.Group.Finset.Basic
import Verif.Model.Basic

/-!
# Specification vocabulary

The only definitions a reader needs besides Mathlib's matrices in order to read the property
theorems.  A matrix object of the library denotes a matrix over GF(2) = `ZMod 2`; a vector
object denotes a vector over GF(2).  Column 0 is the most significant bit of a row
(`/repo/README.md`, and the order in which `printbitM*` prints).
-/
namespace WB

/-- A bit as an element of GF(2). -/
def bitF (b : Bool) : ZMod 2 := if b then 1 else 0

/-- Column `j` of an `n`-bit row stored in one machine word (`n ≤ w`; for `n = 4` the word
has 8 bits and the high nibble is not part of the row). -/
def bitS (n : Nat) {w : Nat} (x : BitVec w) (j : Nat) : Bool := x.getLsbD (n - 1 - j)

/-- Column `j` of a row stored in `l` 64-bit words, word 0 first. -/
def bitW {l : Nat} (x : Vector (BitVec 64) l) (j : Nat) : Bool :=
  (x[j / 64]?.getD 0).getLsbD (63 - j % 64)

/-- The GF(2) matrix whose rows are read by `bit`. -/
def matOf {R : Type} (n : Nat) (bit : R → Nat → Bool) (A : Vector R n) :
    Matrix (Fin n) (Fin n) (ZMod 2) := fun i j => bitF (bit A[i] j)

/-- The GF(2) vector read by `bit`. -/
def vecOf {R : Type} (n : Nat) (bit : R → Nat → Bool) (x : R) : Fin n → ZMod 2 :=
  fun j => bitF (bit x j)

/-- The matrix over GF(2) denoted by an `M4` object. -/
abbrev mat4 (A : M4) : Matrix (Fin 4) (Fin 4) (ZMod 2) := matOf 4 (bitS 4) A
/-- The matrix over GF(2) denoted by an `M8` object. -/
abbrev mat8 (A : M8) : Matrix (Fin 8) (Fin 8) (ZMod 2) := matOf 8 (bitS 8) A
/-- The matrix over GF(2) denoted by an `M16` object. -/
abbrev mat16 (A : M16) : Matrix (Fin 16) (Fin 16) (ZMod 2) := matOf 16 (bitS 16) A
/-- The matrix over GF(2) denoted by an `M32` object. -/
abbrev mat32 (A : M32) : Matrix (Fin 32) (Fin 32) (ZMod 2) := matOf 32 (bitS 32) A
/-- The matrix over GF(2) denoted by an `M64` object. -/
abbrev mat64 (A : M64) : Matrix (Fin 64) (Fin 64) (ZMod 2) := matOf 64 (bitS 64) A
/-- The matrix over GF(2) denoted by an `M128` object. -/
abbrev mat128 (A : M128) : Matrix (Fin 128) (Fin 128) (ZMod 2) := matOf 128 bitW A
/-- The matrix over GF(2) denoted by an `M256` object. -/
abbrev mat256 (A : M256) : Matrix (Fin 256) (Fin 256) (ZMod 2) := matOf 256 bitW A

/-- The vector over GF(2) denoted by a `V4` object or a 4-bit number. -/
abbrev vec4 (x : V4) : Fin 4 → ZMod 2 := vecOf 4 (bitS 4) x
/-- The vector over GF(2) denoted by a `V8` object or an 8-bit number. -/
abbrev vec8 (x : V8) : Fin 8 → ZMod 2 := vecOf 8 (bitS 8) x
/-- The vector over GF(2) denoted by a `V16` object or a 16-bit number. -/
abbrev vec16 (x : V16) : Fin 16 → ZMod 2 := vecOf 16 (bitS 16) x
/-- The vector over GF(2) denoted by a `V32` object or a 32-bit number. -/
abbrev vec32 (x : V32) : Fin 32 → ZMod 2 := vecOf 32 (bitS 32) x
/-- The vector over GF(2) denoted by a `V64` object or a 64-bit number. -/
abbrev vec64 (x : V64) : Fin 64 → ZMod 2 := vecOf 64 (bitS 64) x
/-- The vector over GF(2) denoted by a `V128` object. -/
abbrev vec128 (x : V128) : Fin 128 → ZMod 2 := vecOf 128 bitW x
/-- The vector over GF(2) denoted by a `V256` object. -/
abbrev vec256 (x : V256) : Fin 256 → ZMod 2 := vecOf 256 bitW x

/-- A 4-bit value whose high nibble is zero. -/
def Clean4 (x : BitVec 8) : Prop := x.toNat < 16

/-- A 4-bit matrix all of whose rows have a zero high nibble. -/
def CleanM4 (A : M4) : Prop := ∀ i : Fin 4, Clean4 A[i]

instance (x : BitVec 8) : Decidable (Clean4 x) := inferInstanceAs (Decidable (x.toNat < 16))
instance (A : M4) : Decidable (CleanM4 A) :=
  inferInstanceAs (Decidable (∀ i : Fin 4, Clean4 A[i]))

/-- The number of one bits of a machine word. -/
def weight {w : Nat} (x : BitVec w) : Nat := ∑ i ∈ Finset.range w, (x.getLsbD i).toNat

/-- The number of one bits of an array of words. -/
def weightV {w l : Nat} (x : Vector (BitVec w) l) : Nat := ∑ k : Fin l, weight x[k]

/-- The block-diagonal matrix with the `k` blocks `B 0, ..., B (k-1)` of size `a × a`. -/
def blockDiag {k a : Nat} (B : Fin k → Matrix (Fin a) (Fin a) (ZMod 2)) :
    Matrix (Fin (k * a)) (Fin (k * a)) (ZMod 2) :=
  fun r c => if r.divNat = c.divNat then B r.divNat r.modNat c.modNat else 0

/-- The concatenation of `k` vectors of length `a`. -/
def concatV {k a : Nat} (v : Fin k → Fin a → ZMod 2) : Fin (k * a) → ZMod 2 :=
  fun c => v c.divNat c.modNat

/-- A matrix written as rows of the digits 0 and 1, every digit followed by a blank, every row followed by
a line break, and a final empty line. -/
def bitText {n : Nat} (A : Matrix (Fin n) (Fin n) (ZMod 2)) : List Char :=
  (List.ofFn fun i =>
    (List.ofFn fun j => [if A i j = 1 then '1' else '0', ' ']).flatten ++ ['\n']).flatten ++ ['\n']

/-- A number in C's hexadecimal notation. -/
def hexWord (x : Nat) : List Char := '0' :: 'x' :: Nat.toDigits 16 x

/-- A line of hexadecimal numbers separated by blanks. -/
def hexLine (ws : List Nat) : List Char := [' '].intercalate (ws.map hexWord) ++ ['\n']

/-- Several lines. -/
def hexText (rows : List (List Nat)) : List Char := (rows.map hexLine).flatten

/-- The value of a lower case hexadecimal digit. -/
def hexVal (c : Char) : Nat := if c.toNat < 97 then c.toNat - 48 else c.toNat - 87

/-- The number denoted by a string of hexadecimal digits, most significant digit first. -/
def hexNum (s : List Char) : Nat := s.foldl (fun a c => 16 * a + hexVal c) 0

end WB
