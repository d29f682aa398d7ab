import Verif.Model.SpFreq
import Verif.Model.SpSerial

/-!
# Model of the tests of the random walk in `/repo/test/randomness`

`sp800_22_cumulative_sums_test.py`, `sp800_22_random_excursion_test.py`, `sp800_22_random_excursion_variant_test.py`.  Numbers of type
`float` are rational or real numbers, as in `SpGamma`.  Printing is not modelled.
-/
namespace WB.sp

/-- `sp800_22_cumulative_sums_test.py:30-31` -/
noncomputable def normcdf (n : ℝ) : ℝ := 0.5 * erfc (-n * Real.sqrt 0.5)

/-- `range(a, b)` -/
def rangeZ (a b : ℤ) : List ℤ := (List.range (b - a).toNat).map fun (i : Nat) => a + i

/-- `sp800_22_cumulative_sums_test.py:37-44` and `49-56`: the sum of `normcdf(((4k + u) * z)/sqrt(n)) - normcdf(((4k + v) * z)/sqrt(n))` -/
noncomputable def normSum (n z : Nat) (u v : ℝ) (ks : List ℤ) : C ℝ :=
  ks.foldlM (fun (sum : ℝ) (k : ℤ) => do
    let c ← rdiv ((4 * k + u) * z) (Real.sqrt n)
    let d := normcdf c
    let c ← rdiv ((4 * k + v) * z) (Real.sqrt n)
    let e := normcdf c
    pure (sum + d - e)) 0

/-- `sp800_22_cumulative_sums_test.py:33-59` -/
noncomputable def p_value (n z : Nat) : C ℝ := do
  let startk := ⌊((← qdiv (-n) z) + 1) / 4⌋
  let endk := ⌊((← qdiv n z) - 1) / 4⌋
  let sum_a ← normSum n z 1 (-1) (rangeZ startk (endk + 1))
  let startk := ⌊((← qdiv (-n) z) - 3) / 4⌋
  let endk := ⌊((← qdiv n z) - 1) / 4⌋
  let sum_b ← normSum n z 3 1 (rangeZ startk (endk + 1))
  pure (1 - sum_a + sum_b)

/-- `sp800_22_cumulative_sums_test.py:64-67`; the same in `sp800_22_random_excursion_test.py:33-36` and
`sp800_22_random_excursion_variant_test.py:31-33` -/
def steps (bits : List Nat) : List ℤ := bits.map fun (bit : Nat) => (bit : ℤ) * 2 - 1

/-- `sp800_22_cumulative_sums_test.py:71-76` and `77-82`: `pos` and the largest distance from 0 -/
def max_excursion (x : List ℤ) : ℤ × ℕ :=
  x.foldl (fun (pos, m) e =>
    let pos := pos + e
    if pos.natAbs > m then (pos, pos.natAbs) else (pos, m)) (0, 0)

/-- `sp800_22_cumulative_sums_test.py:61-95` -/
noncomputable def cumulative_sums_test (bits : List Nat) : C Results := do
  let n := bits.length
  let x := steps bits
  let forward_max := (max_excursion x).2
  let backward_max := (max_excursion x.reverse).2
  let p_forward ← p_value n forward_max
  let p_backward ← p_value n backward_max
  pure ⟨0.01 ≤ p_forward ∧ 0.01 ≤ p_backward, [p_forward, p_backward]⟩

/-- `sp800_22_random_excursion_test.py:40-45` and `sp800_22_random_excursion_variant_test.py:36-41` -/
def sprime (bits : List Nat) : List ℤ :=
  let (_, s) := (steps bits).foldl (fun ((pos : ℤ), s) e => (pos + e, s ++ [pos + e])) (0, [])
  [0] ++ s ++ [0]

/-- `sp800_22_random_excursion_test.py:54-56`, at most `fuel` rounds -/
def take_cycle (sp : List ℤ) : (fuel pos : Nat) → (cycle : List ℤ) → C (Nat × List ℤ)
  | 0, _, _ => .error .diverge
  | fuel + 1, pos, cycle => do
    let v ← ix sp pos
    if v ≠ 0 then take_cycle sp fuel (pos + 1) (cycle ++ [v]) else pure (pos, cycle)

/-- `sp800_22_random_excursion_test.py:51-59`, at most `fuel` rounds -/
def take_cycles (sp : List ℤ) : (fuel pos : Nat) → (cycles : List (List ℤ)) → C (List (List ℤ))
  | 0, _, _ => .error .diverge
  | fuel + 1, pos, cycles =>
    if pos < sp.length then do
      let (pos, cycle) ← take_cycle sp (sp.length + 1) pos [0]
      take_cycles sp fuel (pos + 1) (cycles ++ [cycle ++ [0]])
    else pure cycles

/-- `sp800_22_random_excursion_test.py:69` and `101` -/
def mapping : List ℤ := [-4, -3, -2, -1, 1, 2, 3, 4]

/-- `sp800_22_random_excursion_test.py:71-86`: the number of cycles in which `x` occurs `k` times, or at least five times -/
def cyclecount (cycles : List (List ℤ)) (x : ℤ) (k : Nat) : Nat :=
  cycles.foldl (fun cyclecount cycle =>
    let oc := cycle.foldl (fun oc pos => if pos = x then oc + 1 else oc) 0
    if k < 5 then
      if oc = k then cyclecount + 1 else cyclecount
    else if k = 5 then
      if oc ≥ 5 then cyclecount + 1 else cyclecount
    else cyclecount) 0

/-- `sp800_22_random_excursion_test.py:90-96` -/
def pixk : List (List ℚ) :=
  [[0.5, 0.25, 0.125, 0.0625, 0.0312, 0.0312],
   [0.75, 0.0625, 0.0469, 0.0352, 0.0264, 0.0791],
   [0.8333, 0.0278, 0.0231, 0.0193, 0.0161, 0.0804],
   [0.875, 0.0156, 0.0137, 0.012, 0.0105, 0.0733],
   [0.9, 0.01, 0.009, 0.0081, 0.0073, 0.0656],
   [0.9167, 0.0069, 0.0064, 0.0058, 0.0053, 0.0588],
   [0.9286, 0.0051, 0.0047, 0.0044, 0.0041, 0.0531]]

/-- `sp800_22_random_excursion_test.py:64-87`; the table is filled there column by column -/
def excursion_table (cycles : List (List ℤ)) : List (List Nat) :=
  mapping.map fun x => (List.range 6).map fun k => cyclecount cycles x k

/-- `sp800_22_random_excursion_test.py:103-108` -/
def excursion_chisq (vxk : List (List Nat)) (J index : Nat) (x : ℤ) : C ℚ :=
  forUp 0 6 0 fun k chisq => do
    let top := ((← ix (← ix vxk index) k) : ℚ) - J * (← ix (← ix pixk (x.natAbs - 1)) k)
    let top := top * top
    let bottom := J * (← ix (← ix pixk (x.natAbs - 1)) k)
    pure (chisq + (← qdiv top bottom))

/-- `sp800_22_random_excursion_test.py:30-123` -/
noncomputable def random_excursion_test (bits : List Nat) : C Results := do
  let sp := sprime bits
  let cycles ← take_cycles sp (sp.length + 1) 1 []
  let J := cycles.length
  let vxk := excursion_table cycles
  forUp 0 8 ⟨True, []⟩ fun index r => do
    let x ← ix mapping index
    let chisq ← excursion_chisq vxk J index x
    let p ← gammaincc (5 / 2) ((chisq : ℝ) / 2)
    pure ⟨r.success ∧ ¬ p < 0.01, r.ps ++ [p]⟩

/-- `sp800_22_random_excursion_variant_test.py:44-47` -/
def count_zeros (sp : List ℤ) : Nat := sp.tail.foldl (fun J value => if value = 0 then J + 1 else J) 0

/-- `sp800_22_random_excursion_variant_test.py:50-53` -/
def count_states (sp : List ℤ) : C (List Nat) :=
  sp.foldlM (fun count value =>
    if value.natAbs < 10 then do putZ count value ((← ixZ count value) + 1) else pure count) (List.replicate 19 0)

/-- `sp800_22_random_excursion_variant_test.py:28-77` -/
noncomputable def random_excursion_variant_test (bits : List Nat) : C Results := do
  let sp := sprime bits
  let J := count_zeros sp
  let count ← count_states sp
  (rangeZ (-9) 10).foldlM (fun r x =>
    if x ≠ 0 then do
      let top : ℤ := |((← ixZ count x) : ℤ) - J|
      let bottom := Real.sqrt (2 * J * (4 * x.natAbs - 2))
      let p := erfc (← rdiv top bottom)
      pure ⟨r.success ∧ ¬ p < 0.01, r.ps ++ [p]⟩
    else pure r) (⟨True, []⟩ : Results)

end WB.sp
