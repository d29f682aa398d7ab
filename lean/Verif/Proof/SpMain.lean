import Verif.Model.SpMain
import Verif.Proof.SpBase

/-!
# Files and bits of the randomness tests (helper lemmas)
-/
namespace WB.sp

theorem be_bit (a i : Nat) : ((a <<< i) &&& 0x80) >>> 7 = if i ≤ 7 then (a.testBit (7 - i)).toNat else 0 := by
  apply Nat.eq_of_testBit_eq
  intro j
  rw [Nat.testBit_shiftRight, Nat.testBit_and, Nat.testBit_shiftLeft, show (0x80 : Nat) = 2 ^ 7 from rfl, Nat.testBit_two_pow]
  rcases Nat.eq_zero_or_pos j with rfl | hj
  · by_cases h : i ≤ 7
    · cases hb : a.testBit (7 - i) <;> simp [h, hb]
    · simp [h]
  · have h1 : decide (7 = 7 + j) = false := decide_eq_false (by omega)
    have h2 : ∀ b : Bool, b.toNat.testBit j = false := by
      intro b
      apply Nat.testBit_lt_two_pow
      calc b.toNat < 2 := by cases b <;> decide
        _ ≤ 2 ^ j := by
          calc 2 = 2 ^ 1 := rfl
            _ ≤ 2 ^ j := Nat.pow_le_pow_right (by decide) hj
    rw [h1, Bool.and_false]
    split
    · rw [h2]
    · rw [Nat.zero_testBit]

theorem le_bit (a i : Nat) : (a >>> i) &&& 1 = (a.testBit i).toNat := by
  rw [Nat.and_one_is_mod, Nat.testBit, Nat.one_and_eq_mod_two]
  rcases Nat.mod_two_eq_zero_or_one (a >>> i) with h | h <;> rw [h] <;> rfl

/-- The bits of a byte in the order in which they are used. -/
def byteBits (big : Bool) (b : Nat) : List Nat := (List.range 8).map fun j => (b.testBit (if big then 7 - j else j)).toNat

theorem bitsOfByte_eq (big : Bool) (b : Nat) (l : List Nat) : bitsOfByte big b l = l ++ byteBits big b := by
  cases big
  · simp only [bitsOfByte, byteBits, List.range_succ, List.range_zero, List.nil_append, List.cons_append, List.foldl_cons,
      List.foldl_nil, List.map_cons, List.map_nil, Bool.false_eq_true, if_false, List.append_assoc, le_bit]
  · have h := be_bit b
    have h0 := h 0; have h1 := h 1; have h2 := h 2; have h3 := h 3
    have h4 := h 4; have h5 := h 5; have h6 := h 6; have h7 := h 7
    simp only [Nat.shiftLeft_zero] at h0
    simp only [bitsOfByte, byteBits, List.range_succ, List.range_zero, List.nil_append, List.cons_append, List.foldl_cons,
      List.foldl_nil, List.map_cons, List.map_nil, if_true, ← Nat.shiftLeft_add, List.append_assoc]
    rw [h0]
    simp only [Nat.reduceAdd]
    rw [h1, h2, h3, h4, h5, h6, h7]
    rfl

theorem foldl_bits (big : Bool) (d : Bytes) : ∀ l, d.foldl (fun l b => bitsOfByte big b l) l = l ++ d.flatMap (byteBits big) := by
  induction d with
  | nil => simp
  | cons b d ih =>
    intro l
    rw [List.foldl_cons, ih, bitsOfByte_eq]
    simp

theorem readChunks_eq (big : Bool) : ∀ (n : Nat) (d : Bytes), d.length ≤ n → ∀ l, readChunks big d l = l ++ d.flatMap (byteBits big) := by
  intro n
  induction n with
  | zero =>
    intro d h l
    obtain rfl : d = [] := List.length_eq_zero_iff.1 (by omega)
    rw [readChunks]
    simp
  | succ n ih =>
    intro d h l
    rw [readChunks]
    by_cases hd : d = []
    · subst hd
      simp
    · have h1 : ¬ d.take 16384 = [] := by simp [hd]
      have h2 := List.length_pos_iff.2 hd
      rw [dif_neg h1, ih _ (by rw [List.length_drop]; omega), foldl_bits, List.append_assoc, ← List.flatMap_append,
        List.take_append_drop]

theorem replaceBin_length : ∀ s, (replaceBin s).length = s.length := by
  intro s
  induction s using replaceBin.induct with
  | case1 s ih => simp [replaceBin, ih]
  | case2 c s h ih => 
    rw [replaceBin]
    · simp [ih]
    · exact h
  | case3 => rfl

/-- the replacement changes exactly the names in which there is something to replace -/
theorem replaceBin_eq : ∀ s, replaceBin s = s ↔ ¬ ['.', 'b', 'i', 'n'] <:+: s := by
  intro s
  induction s using replaceBin.induct with
  | case1 s ih =>
    refine iff_of_false (by simp [replaceBin]) ?_
    rw [Classical.not_not]
    exact ⟨[], s, rfl⟩
  | case2 c s h ih =>
    rw [replaceBin]
    · rw [List.cons.injEq, List.infix_cons_iff, not_or, ih]
      refine ⟨fun g => ⟨?_, g.2⟩, fun g => ⟨rfl, g.2⟩⟩
      rintro ⟨t, ht⟩
      simp only [List.cons_append, List.nil_append, List.cons.injEq] at ht
      exact h t ht.1.symm ht.2.symm
    · exact h
  | case3 => simp [replaceBin]

end WB.sp
