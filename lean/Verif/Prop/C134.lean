import Verif.Proof.M4riMisc

/-!
# C134 — reversing, spreading and packing the bits of a word in M4RI (`/repo/test/github1_M4RI/include/m4ri/misc.h`, `m4ri_swap_bits`, `m4ri_spread_bits`, `m4ri_shrink_bits`)
-/
namespace WB.m4w

open WB.cmp (Mem)

/-- A table of `length` increasing positions from `base` on, as the columns of pivots are, in reach of a word. -/
structure Table (Q : Mem Nat) (length base : Nat) : Prop where
  pos : 1 ≤ length
  le : length ≤ 16
  size : length ≤ Q.size
  lo : ∀ k < length, base ≤ Q.cell k
  hi : ∀ k < length, Q.cell k < base + 64
  inc : ∀ i j, i < j → j < length → Q.cell i < Q.cell j

variable {Q : Mem Nat} {length base : Nat}

theorem Table.ge (h : Table Q length base) : ∀ k < length, base + k ≤ Q.cell k
  | 0, hk => by have := h.lo 0 hk; omega
  | k + 1, hk => by have := h.ge k (by omega); have := h.inc k (k + 1) (by omega) hk; omega

theorem Table.inj (h : Table Q length base) {i j : Nat} (hi : i < length) (hj : j < length) (e : Q.cell i = Q.cell j) : i = j := by
  rcases Nat.lt_trichotomy i j with l | l | l
  · have := h.inc i j l hj; omega
  · exact l
  · have := h.inc j i l hi; omega

theorem Table.all (h : Table Q length base) : ∀ t < length, t < Q.size ∧ base + t ≤ Q.cell t ∧ Q.cell t < base + 64 :=
  fun t ht => ⟨by have := h.size; omega, h.ge t ht, h.hi t ht⟩

/-- C134: `m4ri_swap_bits` reverses a word. -/
theorem C134_swap (v : Word) : ∀ i < 64, (m4ri_swap_bits v).getLsbD i = v.getLsbD (63 - i) := fun _ hi => swap_bits_bit v hi

/-- C134: reversing twice changes nothing. -/
theorem C134_swap_swap (v : Word) : m4ri_swap_bits (m4ri_swap_bits v) = v := by
  refine BitVec.eq_of_getLsbD_eq fun i hi => ?_
  rw [C134_swap _ i hi, C134_swap _ _ (by omega), show 63 - (63 - i) = i by omega]

/-- C134: `m4ri_spread_bits` moves bit `k` to the place `Q[k] - base`; all other bits are zero. -/
theorem C134_spread (h : Table Q length base) (x : Word) :
    ∃ v, m4ri_spread_bits x Q length base = .ok v ∧ (∀ k < length, v.getLsbD (Q.cell k - base) = x.getLsbD k) ∧ ∀ b, (∀ k < length, Q.cell k ≠ base + b) → v.getLsbD b = false := by
  obtain ⟨v, e, hv⟩ := spread_loop (src := x) length 0#64 (by have := h.le; omega) h.all
  refine ⟨v, by unfold m4ri_spread_bits; rw [if_pos ⟨h.pos, h.le⟩]; exact e, fun k hk => ?_, fun b hb => ?_⟩
  · have h1 := h.lo k hk
    have h2 := h.hi k hk
    rw [hv _ (by omega), BitVec.getLsbD_zero, Bool.false_or]
    cases hx : x.getLsbD k
    · refine decide_eq_false ?_
      rintro ⟨t, ht, e1, e2⟩
      rw [h.inj ht hk (by omega), hx] at e2
      exact absurd e2 (by simp)
    · exact decide_eq_true ⟨k, hk, by omega, hx⟩
  · rcases Nat.lt_or_ge b 64 with l | l
    · rw [hv b l, BitVec.getLsbD_zero, Bool.false_or]
      exact decide_eq_false fun ⟨t, ht, e1, _⟩ => hb t ht e1
    · exact BitVec.getLsbD_of_ge _ _ l

/-- C134: `m4ri_shrink_bits` moves the bit at `Q[k] - base` to the place `k`; all other bits are zero. -/
theorem C134_shrink (h : Table Q length base) (x : Word) : ∃ v, m4ri_shrink_bits x Q length base = .ok v ∧ ∀ k, v.getLsbD k = (decide (k < length) && x.getLsbD (Q.cell k - base)) := by
  have hl := h.le
  obtain ⟨v, e, hv⟩ := shrink_loop (src := x) length 0#64 (by omega) h.all
  refine ⟨v, by unfold m4ri_shrink_bits; rw [if_pos ⟨h.pos, h.le⟩]; exact e, fun k => ?_⟩
  rcases Nat.lt_or_ge k 64 with l | l
  · rw [hv k l, BitVec.getLsbD_zero, Bool.false_or]
  · rw [BitVec.getLsbD_of_ge _ _ l, decide_eq_false (by omega), Bool.false_and]

/-- C134: packing what was spread gives it back. -/
theorem C134_shrink_spread (h : Table Q length base) {x : Word} (hx : ∀ k, length ≤ k → x.getLsbD k = false) :
    ∃ v, m4ri_spread_bits x Q length base = .ok v ∧ m4ri_shrink_bits v Q length base = .ok x := by
  obtain ⟨v, e, hv, _⟩ := C134_spread h x
  obtain ⟨u, e', hu⟩ := C134_shrink h v
  refine ⟨v, e, ?_⟩
  rw [e']
  congr 1
  refine BitVec.eq_of_getLsbD_eq fun k _ => ?_
  rw [hu]
  by_cases hk : k < length
  · rw [decide_eq_true hk, hv k hk, Bool.true_and]
  · rw [decide_eq_false hk, hx k (by omega), Bool.false_and]

/-- C134: spreading what was packed gives it back, if there are bits in the places of the table only. -/
theorem C134_spread_shrink (h : Table Q length base) {x : Word} (hx : ∀ b, (∀ k < length, Q.cell k ≠ base + b) → x.getLsbD b = false) :
    ∃ v, m4ri_shrink_bits x Q length base = .ok v ∧ m4ri_spread_bits v Q length base = .ok x := by
  obtain ⟨v, e, hv⟩ := C134_shrink h x
  obtain ⟨u, e', hu, hu'⟩ := C134_spread h v
  refine ⟨v, e, ?_⟩
  rw [e']
  congr 1
  refine BitVec.eq_of_getLsbD_eq fun b _ => ?_
  by_cases g : ∃ k < length, Q.cell k = base + b
  · obtain ⟨k, hk, hb⟩ := g
    have := hu k hk
    rw [hb, show base + b - base = b by omega, hv, decide_eq_true hk, Bool.true_and, hb, show base + b - base = b by omega] at this
    exact this
  · have g' : ∀ k < length, Q.cell k ≠ base + b := fun k hk he => g ⟨k, hk, he⟩
    rw [hu' b g', hx b g']

/-- C134: other lengths than 1 to 16 end the program. -/
theorem C134_length (x : Word) (Q : Mem Nat) (base : Nat) (h : ¬ (1 ≤ length ∧ length ≤ 16)) :
    m4ri_spread_bits x Q length base = .error .abort ∧ m4ri_shrink_bits x Q length base = .error .abort := ⟨if_neg h, if_neg h⟩

/-- C134: the order matters: in a table with an entry below `base + k` as its last one, at place `k`, a shift is by a negative number. -/
theorem C134_order {k : Nat} (x : Word) (hk : k < 16) (hs : k < Q.size) (h : Q.cell k < base + k) :
    m4ri_spread_bits x Q (k + 1) base = .error .overflow ∧ m4ri_shrink_bits x Q (k + 1) base = .error .overflow := by
  refine ⟨?_, ?_⟩
  · unfold m4ri_spread_bits
    rw [if_pos (by omega)]
    unfold spreadFrom
    rw [Mem.get_eq hs, C_ok_bind, if_pos (.inl h)]
  · unfold m4ri_shrink_bits
    rw [if_pos (by omega)]
    unfold shrinkFrom
    rw [Mem.get_eq hs, C_ok_bind, if_pos (.inl h)]

/-- The table 12, 15, 20. -/
def exTable : Mem Nat := ⟨3, fun k => if k = 0 then 12 else if k = 1 then 15 else 20⟩

theorem exTable_ok : Table exTable 3 10 :=
  ⟨by decide, by decide, by decide, by decide, by decide, fun i j h1 h2 => (show ∀ j < 3, ∀ i < j, exTable.cell i < exTable.cell j by decide) j h2 i h1⟩

/-- 101 is spread to the places 2 and 10. -/
example : m4ri_spread_bits 5#64 exTable 3 10 = .ok 0x404#64 ∧ m4ri_shrink_bits 0x404#64 exTable 3 10 = .ok 5#64 ∧ m4ri_swap_bits 0x1f#64 = 0xf800000000000000#64 := by
  refine ⟨?_, ?_, ?_⟩ <;> with_unfolding_all rfl

/-- The theorems apply to it. -/
example : ∃ v, m4ri_spread_bits 5#64 exTable 3 10 = .ok v ∧ m4ri_shrink_bits v exTable 3 10 = .ok 5#64 :=
  C134_shrink_spread exTable_ok fun k hk => by
    rcases Nat.lt_or_ge k 64 with h | h
    · exact (show ∀ k < 64, 3 ≤ k → (5#64).getLsbD k = false by decide) k h hk
    · exact BitVec.getLsbD_of_ge _ _ h

end WB.m4w
