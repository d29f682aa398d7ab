import Verif.Model.M4riMisc
import Verif.Proof.Cmp
import Verif.Proof.M4riPerm

/-!
# Reversing, spreading and packing bits, and a word as text (helper lemmas)
-/
namespace WB.m4w

open WB.cmp (Mem)

/-! ## Reversing -/

/-- Where bit `i` comes from when groups of `s` bits are exchanged. -/
def swapIdx (s i : Nat) : Nat := if i / s % 2 = 0 then i + s else i - s

/-- The mask selects the first of each two groups of `s` bits. -/
def SwapMask (mk : Word) (s : Nat) : Prop := ∀ i < 64, (mk.getLsbD i = true ∧ (i < s ∨ mk.getLsbD (i - s) = false) ∧ swapIdx s i = i + s) ∨
  (mk.getLsbD i = false ∧ s ≤ i ∧ mk.getLsbD (i - s) = true ∧ swapIdx s i = i - s)

theorem swap_step (v mk : Word) {s : Nat} (hm : SwapMask mk s) {i : Nat} (hi : i < 64) : (((v >>> s) &&& mk) ||| ((v &&& mk) <<< s)).getLsbD i = v.getLsbD (swapIdx s i) := by
  rw [BitVec.getLsbD_or, BitVec.getLsbD_and, BitVec.getLsbD_ushiftRight, BitVec.getLsbD_shiftLeft, BitVec.getLsbD_and, decide_eq_true hi, Bool.true_and]
  rcases hm i hi with ⟨h1, h2, h3⟩ | ⟨h1, h2, h3, h4⟩
  · rw [h3, h1, Nat.add_comm s i, Bool.and_true]
    rcases h2 with h2 | h2
    · rw [decide_eq_true h2]; simp
    · rw [h2]; simp
  · rw [h4, h1, h3, decide_eq_false (by omega)]; simp

theorem swap_bits_bit (v : Word) {i : Nat} (hi : i < 64) : (m4ri_swap_bits v).getLsbD i = v.getLsbD (63 - i) := by
  have hc : ∀ i < 64, let a := if i < 32 then 32 + i else i - 32
      a < 64 ∧ swapIdx 16 a < 64 ∧ swapIdx 8 (swapIdx 16 a) < 64 ∧ swapIdx 4 (swapIdx 8 (swapIdx 16 a)) < 64 ∧ swapIdx 2 (swapIdx 4 (swapIdx 8 (swapIdx 16 a))) < 64 ∧
        swapIdx 1 (swapIdx 2 (swapIdx 4 (swapIdx 8 (swapIdx 16 a)))) = 63 - i := by decide
  obtain ⟨h0, h1, h2, h3, h4, h5⟩ := hc i hi
  have m1 : SwapMask 0x5555555555555555#64 1 := by unfold SwapMask; decide
  have m2 : SwapMask 0x3333333333333333#64 2 := by unfold SwapMask; decide
  have m3 : SwapMask 0x0F0F0F0F0F0F0F0F#64 4 := by unfold SwapMask; decide
  have m4 : SwapMask 0x00FF00FF00FF00FF#64 8 := by unfold SwapMask; decide
  have m5 : SwapMask 0x0000FFFF0000FFFF#64 16 := by unfold SwapMask; decide
  have last : ∀ w : Word, ((w >>> 32) ||| (w <<< 32)).getLsbD i = w.getLsbD (if i < 32 then 32 + i else i - 32) := by
    intro w
    rw [BitVec.getLsbD_or, BitVec.getLsbD_ushiftRight, BitVec.getLsbD_shiftLeft, decide_eq_true hi, Bool.true_and]
    by_cases g : i < 32
    · rw [if_pos g, decide_eq_true g]; simp
    · rw [if_neg g, decide_eq_false g, BitVec.getLsbD_of_ge _ _ (show 64 ≤ 32 + i by omega)]; simp
  unfold m4ri_swap_bits
  dsimp only
  rw [last, swap_step _ _ m5 h0, swap_step _ _ m4 h1, swap_step _ _ m3 h2, swap_step _ _ m2 h3, swap_step _ _ m1 h4, h5]

/-! ## Spreading and packing -/

theorem one_bit (k b : Nat) : (1#64 <<< k).getLsbD b = decide (b = k ∧ b < 64) := by
  rw [BitVec.getLsbD_shiftLeft, BitVec.getLsbD_one]
  by_cases h1 : b = k
  · subst h1; by_cases h2 : b < 64 <;> simp [h2]
  · rw [decide_eq_false (show ¬ (b = k ∧ b < 64) from fun g => h1 g.1)]
    by_cases h2 : b < k
    · simp [h2]
    · rw [decide_eq_false (show ¬ b - k = 0 by omega)]; simp

variable {Q : Mem Nat} {base : Nat} {src : Word}

theorem spread_loop : ∀ (k : Nat) (dst : Word), k ≤ 64 → (∀ t < k, t < Q.size ∧ base + t ≤ Q.cell t ∧ Q.cell t < base + 64) →
    Ok (spreadFrom src Q base k dst) fun v => ∀ b < 64, v.getLsbD b = (dst.getLsbD b || decide (∃ t < k, Q.cell t = base + b ∧ src.getLsbD t = true))
  | 0, dst, _, _ => by
    unfold spreadFrom
    rw [Ok.pure_iff]
    intro b _
    rw [decide_eq_false (by rintro ⟨t, h, _⟩; omega), Bool.or_false]
  | k + 1, dst, hk, h => by
    obtain ⟨h1, h2, h3⟩ := h k (by omega)
    unfold spreadFrom
    rw [Mem.get_eq h1, C_ok_bind, if_neg (by omega)]
    refine (spread_loop k _ (by omega) fun t ht => h t (by omega)).mono ?_
    intro v hv b hb
    rw [hv b hb, BitVec.getLsbD_or, BitVec.getLsbD_shiftLeft, BitVec.getLsbD_and, one_bit, decide_eq_true hb, Bool.true_and, Bool.or_assoc]
    congr 1
    by_cases g : Q.cell k = base + b
    · have e : b - (Q.cell k - k - base) = k := by omega
      rw [e, decide_eq_false (show ¬ b < Q.cell k - k - base by omega), decide_eq_true (show k = k ∧ k < 64 from ⟨rfl, by omega⟩)]
      cases hs : src.getLsbD k
      · simp only [Bool.not_false, Bool.false_and, Bool.and_false, Bool.false_or]
        refine decide_eq_decide.2 ⟨fun ⟨t, a, c⟩ => ⟨t, by omega, c⟩, fun ⟨t, a, c⟩ => ⟨t, ?_, c⟩⟩
        rcases Nat.lt_or_ge t k with l | l
        · exact l
        · rw [show t = k by omega, hs] at c; exact absurd c.2 (by simp)
      · rw [decide_eq_true (show ∃ t < k + 1, Q.cell t = base + b ∧ src.getLsbD t = true from ⟨k, by omega, g, hs⟩)]; simp
    · have e : (!decide (b < Q.cell k - k - base) && (src.getLsbD (b - (Q.cell k - k - base)) && decide (b - (Q.cell k - k - base) = k ∧ b - (Q.cell k - k - base) < 64))) = false := by
        by_cases l : b < Q.cell k - k - base
        · rw [decide_eq_true l]; simp
        · rw [decide_eq_false (show ¬ (b - (Q.cell k - k - base) = k ∧ b - (Q.cell k - k - base) < 64) by omega)]; simp
      rw [e, Bool.false_or]
      refine decide_eq_decide.2 ⟨fun ⟨t, a, c⟩ => ⟨t, by omega, c⟩, fun ⟨t, a, c⟩ => ⟨t, ?_, c⟩⟩
      rcases Nat.lt_or_ge t k with l | l
      · exact l
      · rw [show t = k by omega] at c; exact absurd c.1 g

theorem shrink_loop : ∀ (k : Nat) (dst : Word), k ≤ 64 → (∀ t < k, t < Q.size ∧ base + t ≤ Q.cell t ∧ Q.cell t < base + 64) →
    Ok (shrinkFrom src Q base k dst) fun v => ∀ b < 64, v.getLsbD b = (dst.getLsbD b || (decide (b < k) && src.getLsbD (Q.cell b - base)))
  | 0, dst, _, _ => by
    unfold shrinkFrom
    rw [Ok.pure_iff]
    intro b _
    simp
  | k + 1, dst, hk, h => by
    obtain ⟨h1, h2, h3⟩ := h k (by omega)
    unfold shrinkFrom
    rw [Mem.get_eq h1, C_ok_bind, if_neg (by omega)]
    refine (shrink_loop k _ (by omega) fun t ht => h t (by omega)).mono ?_
    intro v hv b hb
    rw [hv b hb, BitVec.getLsbD_or, BitVec.getLsbD_ushiftRight, BitVec.getLsbD_and, one_bit, Bool.or_assoc]
    congr 1
    by_cases g : b = k
    · subst g
      rw [show Q.cell b - b - base + b = Q.cell b - base by omega, decide_eq_true (show Q.cell b - base = Q.cell b - base ∧ Q.cell b - base < 64 from ⟨rfl, by omega⟩),
        decide_eq_false (show ¬ b < b by omega), decide_eq_true (show b < b + 1 by omega)]
      simp
    · rw [decide_eq_false (show ¬ (Q.cell k - k - base + b = Q.cell k - base ∧ Q.cell k - k - base + b < 64) by omega), Bool.and_false, Bool.false_or,
        decide_eq_decide.2 (show b < k ↔ b < k + 1 by omega)]

/-! ## Text -/

theorem str_spec {d : Mem Char} (data : Word) (colon : Bool) (hd : (if colon then 80 else 65) ≤ d.size) :
    Ok (m4ri_word_to_str d data colon) fun e => e.size = d.size ∧ (∀ i < 64, e.cell (if colon then i + i / 4 else i) = if data.getLsbD i then '1' else ' ') ∧
      (colon = true → ∀ i < 15, e.cell (5 * i + 4) = ':') ∧ e.cell (if colon then 79 else 64) = '\x00' ∧ ∀ j, (if colon then 80 else 65) ≤ j → e.cell j = d.cell j := by
  unfold m4ri_word_to_str
  refine Ok.bind (P := fun s : Mem Char × Nat => s.1.size = d.size ∧ s.2 = (if colon then 79 else 64) ∧ (∀ t < 64, s.1.cell (if colon then t + t / 4 else t) = if data.getLsbD t then '1' else ' ') ∧
    (colon = true → ∀ t < 15, s.1.cell (5 * t + 4) = ':') ∧ ∀ j, s.2 ≤ j → s.1.cell j = d.cell j) ?_ ?_
  · refine Ok.forUp (P := fun i s => s.1.size = d.size ∧ s.2 = (if colon then i + (i - 1) / 4 else i) ∧ (∀ t < i, s.1.cell (if colon then t + t / 4 else t) = if data.getLsbD t then '1' else ' ') ∧
      (colon = true → ∀ t, 4 * t + 4 < i → s.1.cell (5 * t + 4) = ':') ∧ ∀ j, s.2 ≤ j → s.1.cell j = d.cell j) (Nat.zero_le _) ?_ ?_ ?_
    · refine ⟨rfl, by cases colon <;> rfl, fun t h => absurd h (by omega), fun _ t h => absurd h (by omega), fun _ _ => rfl⟩
    · intro i s _ hi ⟨h1, h2, h3, h4, h5⟩
      unfold strBit
      cases colon
      · simp only [Bool.false_eq_true, false_and, if_false] at *
        rw [C_pure_eq, C_ok_bind, mem_put_eq _ (by omega), C_ok_bind, Ok.pure_iff]
        refine ⟨h1, by show s.2 + 1 = _; omega, fun t ht => ?_, fun h => absurd h (by simp), fun j hj => ?_⟩
        · show (if t = s.2 then _ else s.1.cell t) = _
          by_cases g : t = s.2
          · rw [if_pos g, show t = i by omega]
          · rw [if_neg g, h3 t (by omega)]
        · have : s.2 + 1 ≤ j := hj
          show (if j = s.2 then _ else s.1.cell j) = _
          rw [if_neg (by omega), h5 j (by omega)]
      · simp only [if_true, true_and, forall_const] at *
        by_cases g : i % 4 = 0 ∧ i ≠ 0
        · rw [if_pos g, mem_put_eq _ (by omega), C_ok_bind, C_pure_eq, C_ok_bind]
          rw [mem_put_eq (a := ⟨s.1.size, fun k => if k = s.2 then ':' else s.1.cell k⟩) _ (by show s.2 + 1 < s.1.size; omega), C_ok_bind, Ok.pure_iff]
          refine ⟨h1, by show s.2 + 1 + 1 = _; omega, fun t ht => ?_, fun t ht => ?_, fun j hj => ?_⟩
          · show (if t + t / 4 = s.2 + 1 then _ else if t + t / 4 = s.2 then _ else s.1.cell (t + t / 4)) = _
            by_cases k : t = i
            · rw [if_pos (by omega), k]
            · rw [if_neg (by omega), if_neg (by omega), h3 t (by omega)]
          · show (if 5 * t + 4 = s.2 + 1 then _ else if 5 * t + 4 = s.2 then _ else s.1.cell (5 * t + 4)) = _
            by_cases k : 4 * t + 4 = i
            · rw [if_neg (by omega), if_pos (by omega)]
            · rw [if_neg (by omega), if_neg (by omega), h4 t (by omega)]
          · have : s.2 + 1 + 1 ≤ j := hj
            show (if j = s.2 + 1 then _ else if j = s.2 then _ else s.1.cell j) = _
            rw [if_neg (by omega), if_neg (by omega), h5 j (by omega)]
        · rw [if_neg g, C_pure_eq, C_ok_bind, mem_put_eq _ (by omega), C_ok_bind, Ok.pure_iff]
          refine ⟨h1, by show s.2 + 1 = _; omega, fun t ht => ?_, fun t ht => ?_, fun j hj => ?_⟩
          · show (if t + t / 4 = s.2 then _ else s.1.cell (t + t / 4)) = _
            by_cases k : t = i
            · rw [if_pos (by omega), k]
            · rw [if_neg (by omega), h3 t (by omega)]
          · show (if 5 * t + 4 = s.2 then _ else s.1.cell (5 * t + 4)) = _
            rw [if_neg (by omega), h4 t (by omega)]
          · have : s.2 + 1 ≤ j := hj
            show (if j = s.2 then _ else s.1.cell j) = _
            rw [if_neg (by omega), h5 j (by omega)]
    · intro s ⟨h1, h2, h3, h4, h5⟩
      exact ⟨h1, h2, h3, fun hc t ht => h4 hc t (by omega), h5⟩
  · intro s ⟨h1, h2, h3, h4, h5⟩
    have hs : s.2 < s.1.size := by rw [h1, h2]; cases colon <;> simp_all <;> omega
    rw [mem_put_eq _ hs, Ok.ok_iff]
    refine ⟨h1, fun i hi => ?_, fun hc i hi => ?_, ?_, fun j hj => ?_⟩
    · show (if _ = s.2 then _ else _) = _
      rw [if_neg (by rw [h2]; cases colon <;> simp <;> omega), h3 i hi]
    · show (if _ = s.2 then _ else _) = _
      rw [if_neg (by rw [h2, hc]; simp; omega), h4 hc i hi]
    · show (if _ = s.2 then _ else _) = _
      rw [if_pos h2.symm]
    · show (if _ = s.2 then _ else _) = _
      have : s.2 + 1 ≤ j := by rw [h2]; cases colon <;> simp_all
      rw [if_neg (by omega), h5 j (by omega)]

end WB.m4w
