import Verif.Model.SpGamma

/-!
# Model of `/repo/test/randomness/sp800_22_linear_complexity_test.py`

The numbers of type `float` up to the statistic are exact rational numbers.
-/
namespace WB.sp

/-- The variables of the loop in `berelekamp_massey`. -/
structure BM where
  b : List Nat
  c : List Nat
  L : Nat
  m : Int

/-- `sp800_22_linear_complexity_test.py:41-43` -/
def discrepancy (bits : List Nat) (N : Nat) (s : BM) : C Nat := do
  forUp 1 (s.L + 1) (← ix bits N) fun i d => do
    pure (d ^^^ ((← ix s.c i) &&& (← ix bits (N - i))))

/-- `sp800_22_linear_complexity_test.py:45-51`; the condition `L <= (N/2)` of line 48 is `2 * L ≤ N` -/
def adjust (n N : Nat) (s : BM) : C BM := do
  let t := s.c
  let c ← forUp 0 ((n : Int) - N + s.m).toNat s.c fun i c => do
    let j := ((N : Int) - s.m + i).toNat
    put c j ((← ix c j) ^^^ (← ix s.b i))
  if 2 * s.L ≤ N then
    pure { b := t, c := c, L := N + 1 - s.L, m := N }
  else
    pure { s with c := c }

/-- `sp800_22_linear_complexity_test.py:29-54` -/
def berelekamp_massey (bits : List Nat) : C (Nat × List Nat) := do
  let n := bits.length
  let b ← put (bits.map fun _ => 0) 0 1
  let c ← put (bits.map fun _ => 0) 0 1
  let s ← forUp 0 n { b := b, c := c, L := 0, m := -1 : BM } fun N s => do
    let d ← discrepancy bits N s
    if d ≠ 0 then adjust n N s else pure s
  pure (s.L, slice s.c 0 s.L)

/-- `sp800_22_linear_complexity_test.py:80-83` -/
def mu (M : Nat) : ℚ :=
  let a : ℚ := M / 2
  let b : ℚ := ((-1) ^ (M + 1) + 9) / 36
  let c : ℚ := (M / 3 + 2 / 9) / 2 ^ M
  a + b - c

/-- `sp800_22_linear_complexity_test.py:93-106`: the index of the counter -/
def ticket (t : ℚ) : Nat :=
  if t ≤ -5 / 2 then 0
  else if t ≤ -3 / 2 then 1
  else if t ≤ -1 / 2 then 2
  else if t ≤ 1 / 2 then 3
  else if t ≤ 3 / 2 then 4
  else if t ≤ 5 / 2 then 5
  else 6

/-- `sp800_22_linear_complexity_test.py:74-106` -/
def linear_counts (bits : List Nat) (M N : Nat) : C (List Nat) := do
  let LC ← forUp 0 N ([] : List Nat) fun i LC => do
    let x := slice bits (i * M) ((i + 1) * M)
    pure (LC ++ [(← berelekamp_massey x).1])
  let T ← forUp 0 N ([] : List ℚ) fun i T => do
    pure (T ++ [(-1) ^ M * ((← ix LC i) - mu M) + 2 / 9])
  T.foldlM (fun v t => do put v (ticket t) ((← ix v (ticket t)) + 1)) [0, 0, 0, 0, 0, 0, 0]

/-- `x / y` for rational numbers -/
def qdiv (x y : ℚ) : C ℚ := if y = 0 then .error .divZero else .ok (x / y)

/-- `sp800_22_linear_complexity_test.py:109-112` -/
def linear_chisq (v : List Nat) (N : Nat) : C ℚ := do
  let pi : List ℚ := [0.010417, 0.03125, 0.125, 0.5, 0.25, 0.0625, 0.020833]
  forUp 0 7 0 fun i chisq => do
    pure (chisq + (← qdiv (((← ix v i) - N * (← ix pi i)) ^ 2) (N * (← ix pi i))))

/-- `sp800_22_linear_complexity_test.py:56-118` -/
noncomputable def linear_complexity_test (bits : List Nat) (patternlen : Option Nat) : C Result := do
  let n := bits.length
  let go (M : Nat) : C Result := do
    let N := n / M
    let v ← linear_counts bits M N
    let chisq ← linear_chisq v N
    let P ← gammaincc 3 ((chisq : ℝ) / 2)
    pure (result P)
  match patternlen with
  | some M => if M = 0 then .error .divZero else go M
  | none => if n < 1000000 then pure ⟨False, 0⟩ else go 512

end WB.sp
