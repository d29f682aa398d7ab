import Mathlib.Data.Fintype.EquivFin
import Mathlib.Data.Nat.Factorization.Basic
import Verif.Proof.M4riWord

/-!
# The Gray codes of M4RI (helper lemmas)
-/
namespace WB.m4w

open WB.cmp (Mem Mem2)

def gray (n : Nat) : Nat := n ^^^ (n >>> 1)

theorem gray_bit (n b : Nat) : (gray n).testBit b = (n.testBit b ^^ n.testBit (b + 1)) := by
  unfold gray
  rw [Nat.testBit_xor, Nat.testBit_shiftRight, Nat.add_comm 1 b]

theorem gray_code {number length : Nat} (h : number < 2 ^ length) : m4ri_gray_code number length = .ok (gray number) := by
  unfold m4ri_gray_code
  rw [← Ok.eq, Ok.bind_iff]
  refine Ok.forDown (P := fun i (s : Nat × Nat) => (s.1 = if i < length then number &&& 2 ^ i else 0) ∧
    ∀ b, s.2.testBit b = (decide (i ≤ b) && (number.testBit b ^^ number.testBit (b + 1)))) (by omega) ?_ ?_ ?_
  · refine ⟨by rw [if_neg (by omega)], fun b => ?_⟩
    by_cases hb : length ≤ b
    · have h1 : number.testBit b = false := Nat.testBit_lt_two_pow (Nat.lt_of_lt_of_le h (Nat.pow_le_pow_right (by omega) hb))
      have h2 : number.testBit (b + 1) = false := Nat.testBit_lt_two_pow (Nat.lt_of_lt_of_le h (Nat.pow_le_pow_right (by omega) (by omega)))
      simp [h1, h2]
    · simp [hb]
  · intro i s _ hi ⟨h1, h2⟩
    rw [Ok.pure_iff]
    refine ⟨by rw [if_pos hi, Nat.shiftLeft_eq, Nat.one_mul], fun b => ?_⟩
    simp only []
    rw [Nat.testBit_or, Nat.testBit_xor, Nat.testBit_shiftRight, h2, h1, Nat.shiftLeft_eq, Nat.one_mul, Nat.testBit_and, Nat.testBit_two_pow]
    have h3 : (if i + 1 < length then number &&& 2 ^ (i + 1) else 0).testBit (1 + b) = (number.testBit (b + 1) && decide (i = b)) := by
      split
      · rw [Nat.testBit_and, Nat.testBit_two_pow, Nat.add_comm 1 b]
        congr 1
        rw [decide_eq_decide]
        omega
      · rename_i hh
        rw [Nat.zero_testBit]
        by_cases hb : i = b
        · have : number.testBit (b + 1) = false := Nat.testBit_lt_two_pow (Nat.lt_of_lt_of_le h (Nat.pow_le_pow_right (by omega) (by omega)))
          rw [this]; rfl
        · simp [hb]
    rw [h3]
    by_cases hb : i = b
    · subst hb
      cases number.testBit i <;> cases number.testBit (i + 1) <;> simp
    · rcases Nat.lt_or_ge b i with hh | hh
      · simp [hb, show ¬ i ≤ b by omega, show ¬ i + 1 ≤ b by omega]
      · simp [hb, hh, show i + 1 ≤ b by omega]
  · intro s ⟨_, h2⟩
    rw [Ok.pure_iff]
    apply Nat.eq_of_testBit_eq
    intro b
    rw [h2, gray_bit]
    simp

theorem gray_inj {a b : Nat} (h : gray a = gray b) : a = b := by
  have h0 : a ^^^ b = (a ^^^ b) >>> 1 := by
    apply Nat.eq_of_testBit_eq
    intro i
    have := congrArg (·.testBit i) h
    simp only [gray_bit] at this
    rw [Nat.testBit_shiftRight, Nat.testBit_xor, Nat.testBit_xor, Nat.add_comm 1 i]
    revert this
    cases a.testBit i <;> cases b.testBit i <;> cases a.testBit (i + 1) <;> cases b.testBit (i + 1) <;> simp
  have h1 : a ^^^ b = 0 := by
    rw [Nat.shiftRight_eq_div_pow] at h0
    omega
  apply Nat.eq_of_testBit_eq
  intro i
  have := congrArg (·.testBit i) h1
  simp only [Nat.testBit_xor, Nat.zero_testBit] at this
  revert this
  cases a.testBit i <;> cases b.testBit i <;> simp

theorem gray_lt {n l : Nat} (h : n < 2 ^ l) : gray n < 2 ^ l := by
  unfold gray
  refine Nat.xor_lt_two_pow h (Nat.lt_of_le_of_lt ?_ h)
  rw [Nat.shiftRight_eq_div_pow]
  exact Nat.div_le_self _ _

theorem gray_surj {x l : Nat} (h : x < 2 ^ l) : ∃ i < 2 ^ l, gray i = x := by
  have hs : Function.Surjective (fun i : Fin (2 ^ l) => (⟨gray i, gray_lt i.2⟩ : Fin (2 ^ l))) := by
    apply Finite.injective_iff_surjective.1
    intro a b hab
    exact Fin.ext (gray_inj (congrArg Fin.val hab))
  obtain ⟨i, hi⟩ := hs ⟨x, h⟩
  exact ⟨i, i.2, congrArg Fin.val hi⟩

/-- The bit in which two neighbouring code words differ. -/
theorem gray_step {i s : Nat} (h1 : 2 ^ s ∣ i) (h2 : ¬ 2 ^ (s + 1) ∣ i) : gray i = gray (i - 1) ^^^ 2 ^ s := by
  obtain ⟨q, rfl⟩ := h1
  have hq : q % 2 = 1 := by
    by_contra hh
    apply h2
    obtain ⟨p, hp⟩ := Nat.dvd_of_mod_eq_zero (show q % 2 = 0 by omega)
    exact ⟨p, by rw [hp, Nat.pow_succ]; ring⟩
  have hq0 : q - 1 + 1 = q := by omega
  have e1 : ∀ b, (2 ^ s * q).testBit b = (decide (s ≤ b) && q.testBit (b - s)) := fun b => by
    rw [Nat.mul_comm, Nat.testBit_mul_two_pow]
  have e2 : ∀ b, (2 ^ s * q - 1).testBit b = if b < s then true else (q - 1).testBit (b - s) := fun b => by
    have hp : 0 < 2 ^ s := Nat.two_pow_pos s
    have : 2 ^ s * q - 1 = 2 ^ s * (q - 1) + (2 ^ s - 1) := by
      have : 2 ^ s * q = 2 ^ s * (q - 1) + 2 ^ s := by rw [← Nat.mul_succ, Nat.succ_eq_add_one, hq0]
      omega
    rw [this, Nat.testBit_two_pow_mul_add _ (by omega)]
    split
    · rw [Nat.testBit_two_pow_sub_one]; simpa
    · rfl
  have e3 : ∀ b, (q - 1).testBit b = (q.testBit b && !decide (b = 0)) := fun b => by
    cases b with
    | zero => simp; omega
    | succ b => rw [Nat.testBit_succ, Nat.testBit_succ]; simp; congr 1; omega
  have e4 : q.testBit 0 = true := by simp [hq]
  apply Nat.eq_of_testBit_eq
  intro b
  rw [gray_bit, Nat.testBit_xor, gray_bit, Nat.testBit_two_pow, e1, e1, e2, e2, e3, e3]
  rcases Nat.lt_trichotomy b s with hb | hb | hb
  · by_cases hb' : b + 1 < s
    · simp [hb, hb', show ¬ s ≤ b by omega, show ¬ s ≤ b + 1 by omega, show ¬ s = b by omega]
    · have : b + 1 = s := by omega
      simp [hb, this, show ¬ s ≤ b by omega, show ¬ s = b by omega, hq]
  · subst hb
    simp [hq]
  · simp [show ¬ b < s by omega, show ¬ b + 1 < s by omega, show s ≤ b by omega, show s ≤ b + 1 by omega, show ¬ b - s = 0 by omega,
      show ¬ b + 1 - s = 0 by omega, show ¬ s = b by omega]

open Classical in
/-- The codes: `ord` lists the Gray code and `inc` the rows to be added. -/
theorem build_code (l : Nat) : Ok (m4ri_build_code l) fun p => (p.1.size = 2 ^ l ∧ ∀ i < 2 ^ l, p.1.cell i = gray i) ∧
    p.2.size = 2 ^ l ∧ ∀ i, 0 < i → i < 2 ^ l → p.2.cell (i - 1) < l ∧ gray i = gray (i - 1) ^^^ 2 ^ p.2.cell (i - 1) := by
  unfold m4ri_build_code
  rw [Ok.bind_iff]
  refine Ok.forUp (P := fun i (o : Mem Nat) => o.size = 2 ^ l ∧ ∀ t < i, o.cell t = gray t) (Nat.zero_le _)
    ⟨rfl, fun t ht => absurd ht (by omega)⟩ ?_ ?_
  · intro i o _ hi ⟨h1, h2⟩
    rw [gray_code hi, C_ok_bind, Mem.Ok_put]
    refine ⟨by rw [h1]; exact hi, h1, fun t ht => ?_⟩
    simp only []
    by_cases hti : t = i
    · rw [if_pos hti, hti]
    · rw [if_neg hti]; exact h2 t (by omega)
  intro o ⟨h1, h2⟩
  rw [Ok.bind_iff]
  -- after the pass for `s = l - i`, the entry for `t` is the largest exponent up to `s` of a power of two dividing `t`
  refine Ok.forDown (P := fun i (o : Mem Nat) => o.size = 2 ^ l ∧ ∀ t, 0 < t → t ≤ 2 ^ l → i ≤ l →
    (o.cell (t - 1) ≤ l - i ∧ 2 ^ o.cell (t - 1) ∣ t ∧ ∀ s, s ≤ l - i → 2 ^ s ∣ t → s ≤ o.cell (t - 1))) (by omega)
    ⟨rfl, fun t _ _ h => absurd h (by omega)⟩ ?_ ?_
  · intro i c hi1 hi2 ⟨h3, h4⟩
    have hpow : 2 ^ l = 2 ^ i * 2 ^ (l - i) := by rw [← Nat.pow_add]; congr 1; omega
    have hp : 0 < 2 ^ (l - i) := Nat.two_pow_pos _
    refine Ok.forUp (P := fun j (o : Mem Nat) => o.size = 2 ^ l ∧ ∀ t, o.cell t =
        if ∃ u, 0 < u ∧ u < j ∧ t = u * 2 ^ (l - i) - 1 then l - i else c.cell t)
      (show 1 ≤ 2 ^ i + 1 from Nat.succ_le_succ (Nat.zero_le _))
      ⟨h3, fun t => by rw [if_neg (by rintro ⟨u, hu⟩; omega)]⟩ ?_ ?_
    · intro j o hj1 hj2 ⟨h5, h6⟩
      rw [Mem.Ok_put]
      have hle : j * 2 ^ (l - i) ≤ 2 ^ l := by rw [hpow]; exact Nat.mul_le_mul_right _ (by omega)
      have hpos : 0 < j * 2 ^ (l - i) := Nat.mul_pos hj1 hp
      refine ⟨by rw [h5]; omega, h5, fun t => ?_⟩
      simp only []
      by_cases ht : t = j * 2 ^ (l - i) - 1
      · rw [if_pos ht, if_pos ⟨j, hj1, by omega, ht⟩]
      · rw [if_neg ht, h6]
        refine if_congr ⟨?_, ?_⟩ rfl rfl
        · rintro ⟨u, h7, h8, h9⟩; exact ⟨u, h7, by omega, h9⟩
        · rintro ⟨u, h7, h8, h9⟩
          refine ⟨u, h7, ?_, h9⟩
          by_contra hh
          exact ht (by rw [h9, show u = j by omega])
    · intro o ⟨h5, h6⟩
      refine ⟨h5, fun t ht1 ht2 _ => ?_⟩
      rw [h6]
      by_cases hd : 2 ^ (l - i) ∣ t
      · obtain ⟨u, rfl⟩ := hd
        have hu0 : 0 < u := by by_contra hh; rw [show u = 0 by omega] at ht1; simp at ht1
        have hui : u ≤ 2 ^ i := by
          rw [hpow, Nat.mul_comm] at ht2
          exact Nat.le_of_mul_le_mul_right ht2 hp
        rw [if_pos ⟨u, hu0, by omega, by rw [Nat.mul_comm]⟩]
        exact ⟨Nat.le_refl _, Nat.dvd_mul_right _ _, fun s hs _ => hs⟩
      · rw [if_neg]
        · have hil : i + 1 ≤ l := by
            by_contra hh
            exact hd (by rw [show l - i = 0 by omega]; exact one_dvd _)
          obtain ⟨h7, h8, h9⟩ := h4 t ht1 ht2 hil
          refine ⟨by omega, h8, fun s hs hst => ?_⟩
          by_cases hsl : s = l - i
          · exact absurd (hsl ▸ hst) hd
          · exact h9 s (by omega) hst
        · rintro ⟨u, h7, h8, h9⟩
          apply hd
          have : 0 < u * 2 ^ (l - i) := Nat.mul_pos h7 hp
          exact ⟨u, by rw [Nat.mul_comm]; omega⟩
  · intro c ⟨h3, h4⟩
    rw [Ok.pure_iff]
    refine ⟨⟨h1, h2⟩, h3, fun i hi1 hi2 => ?_⟩
    have hl : 1 ≤ l := by
      by_contra hh
      rw [show l = 0 by omega] at hi2
      simp at hi2
      omega
    obtain ⟨h7, h8, h9⟩ := h4 i hi1 (by omega) hl
    refine ⟨show c.cell (i - 1) < l by omega, gray_step h8 fun hd => ?_⟩
    change 2 ^ (c.cell (i - 1) + 1) ∣ i at hd
    rcases Nat.lt_or_ge (c.cell (i - 1)) (l - 1) with hh | hh
    · have := h9 _ (by omega) hd
      omega
    · have : c.cell (i - 1) + 1 = l := by omega
      rw [this] at hd
      have := Nat.le_of_dvd hi1 hd
      omega

end WB.m4w
