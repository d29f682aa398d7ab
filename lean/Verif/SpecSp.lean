import Mathlib.Algebra.BigOperators.Ring.Finset
import Mathlib.Data.ZMod.Basic
import Mathlib.Data.Matrix.Basic
import Mathlib.Data.Rat.Cast.CharZero

/-!
# Specification vocabulary for the randomness tests
-/
namespace WB.sp

/-- A list of bits. -/
def Bits (l : List Nat) : Prop := ∀ x ∈ l, x < 2

/-- Element `i` of a list of bits, as an element of GF(2). -/
def bit (l : List Nat) (i : Nat) : ZMod 2 := (l[i]?.getD 0 : Nat)

/-- From position `L` on, every bit is the same linear combination of the `L` bits before it: the bits are the output of a linear
feedback shift register with `L` cells. -/
def Register (bits : List Nat) (L : Nat) (taps : Nat → ZMod 2) : Prop :=
  ∀ j, L ≤ j → j < bits.length → bit bits j = ∑ i ∈ Finset.range L, taps i * bit bits (j - 1 - i)

/-- `L` is the linear complexity of the bits: the length of a shortest register. -/
def LinearComplexity (bits : List Nat) (L : Nat) : Prop :=
  IsLeast {L | ∃ taps, Register bits L taps} L

/-- A list of `Q` rows of `M` bits. -/
def Rows (Q M : Nat) (m : List (List Nat)) : Prop := m.length = Q ∧ ∀ r ∈ m, r.length = M ∧ Bits r

/-- The matrix over GF(2) given by a list of rows. -/
def mat (Q M : Nat) (m : List (List Nat)) : Matrix (Fin Q) (Fin M) (ZMod 2) := fun i j => bit (m[(i : Nat)]?.getD []) j

/-- The chi-square statistic for `N` observations, of which `v k` fall into class `k`, and the probabilities `π k` of `K` classes. -/
def chiSquare (K : Nat) (N : ℚ) (v π : Nat → ℚ) : ℚ := ∑ k ∈ Finset.range K, (v k - N * π k) ^ 2 / (N * π k)

/-- The number of runs (maximal blocks of equal bits): the number of positions where one starts. -/
def runs (bits : List Nat) : Nat :=
  ((Finset.range bits.length).filter fun i => i = 0 ∨ bits[i]? ≠ bits[i - 1]?).card

/-- `k` is the length of the longest run of ones. -/
def LongestRun (bits : List Nat) (k : Nat) : Prop :=
  IsGreatest {k | ∃ s, s + k ≤ bits.length ∧ ∀ t, t < k → bits[s + t]? = some 1} k

/-- The part of a list of bits from position `i * M` to position `(i + 1) * M - 1`. -/
def part (bits : List Nat) (M i : Nat) : List Nat := (bits.drop (i * M)).take M

/-- The number of positions at which the word `w` of `m` bits occurs, if the bits are written on a circle. -/
def occ (bits : List Nat) (m : Nat) (w : Fin m → Fin 2) : Nat :=
  ((Finset.range bits.length).filter fun i => ∀ j : Fin m, bits[(i + j) % bits.length]? = some (w j : Nat)).card

/-- The word `w` stands at position `p`. -/
def OccursAt (l w : List Nat) (p : Nat) : Prop := (l.drop p).take w.length = w

instance (l w : List Nat) (p : Nat) : Decidable (OccursAt l w p) := by unfold OccursAt; infer_instance

/-- The number of positions before `k` at which the word `w` stands. -/
def occurrences (l w : List Nat) (k : Nat) : Nat := ((Finset.range k).filter (OccursAt l w)).card

/-- No end of the word, except the whole word, is also its beginning: two occurrences cannot overlap. -/
def Unbordered (w : List Nat) : Prop := ∀ d, d < w.length → 0 < d → w.drop d ≠ w.take (w.length - d)

/-- The expected number of occurrences of a word of `m` bits in `M` random bits. -/
def mean (M m : Nat) : ℚ := ((M : ℚ) - m + 1) / 2 ^ m

/-- The variance of this number for a word that cannot overlap itself (SP 800-22, 2.7.4). -/
def variance (M m : Nat) : ℚ := M * (1 / 2 ^ m - (2 * m - 1) / 2 ^ (2 * m))

/-- The position of the walk after `k` bits: one step up for a one, one step down for a zero. -/
def walk (bits : List Nat) (k : Nat) : ℤ := ((bits.take k).map fun (b : Nat) => 2 * (b : ℤ) - 1).sum

/-- The positions of the walk after the first, the second, …, the last bit. -/
def path (bits : List Nat) : List ℤ := (List.range bits.length).map fun i => walk bits (i + 1)

/-- `cs` are the parts of a path between its visits of 0: excursions without a 0, each followed by a 0, where a 0 is added at the end. -/
def Excursions (p : List ℤ) (cs : List (List ℤ)) : Prop :=
  (∀ c ∈ cs, (0 : ℤ) ∉ c) ∧ p ++ [0] = (cs.map (· ++ [0])).flatten

end WB.sp
