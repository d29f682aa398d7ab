import Mathlib.Tactic.IntervalCases
import Verif.Model.M4riTrans
import Verif.Proof.M4riTable

/-!
# The exchange of blocks of bits in M4RI's transposition (helper lemmas)
-/
namespace WB.m4w

open WB.cmp (Mem Mem2)

/-- Bit `p` of word `r`. -/
def tb (t : Mem Word) (r p : Nat) : Bool := (t.cell r).getLsbD p

/-- The bit that the exchange of `j` x `j` blocks brings to word `r` and position `p`. -/
def sw (j : Nat) (t : Mem Word) (r p : Nat) : Bool :=
  if r % (2 * j) < j then (if p % (2 * j) < j then tb t r p else tb t (r + j) (p - j))
  else (if p % (2 * j) < j then tb t (r - j) (p + j) else tb t r p)

theorem swapPair_spec {j : Nat} {m : Word} {t : Mem Word} {k : Nat} (hj : 0 < j) (hk : k + j < t.size) (hm : ∀ p < 64, m.getLsbD p = decide (p % (2 * j) < j))
    (h1 : k % (2 * j) < j) (h2 : ¬ (k + j) % (2 * j) < j) :
    Ok (swapPair j m t k) fun t' => t'.size = t.size ∧ ∀ r, ∀ p < 64, tb t' r p = if r = k ∨ r = k + j then sw j t r p else tb t r p := by
  unfold swapPair
  simp only [Ok.bind_iff, Mem.Ok_get, Mem.Ok_put]
  refine ⟨by omega, hk, by omega, hk, trivial, fun r p hp => ?_⟩
  unfold tb
  simp only []
  have hmod := Nat.div_add_mod p (2 * j)
  have hml : p % (2 * j) < 2 * j := Nat.mod_lt _ (by omega)
  by_cases hr1 : r = k + j
  · rw [if_pos hr1, if_pos (Or.inr hr1), BitVec.getLsbD_xor, BitVec.getLsbD_and, BitVec.getLsbD_xor, BitVec.getLsbD_ushiftRight, hm p hp, hr1]
    unfold sw tb
    rw [if_neg h2, Nat.add_sub_cancel, Nat.add_comm j p]
    split
    · rename_i h; rw [decide_eq_true h]
      cases BitVec.getLsbD (t.cell (k + j)) p <;> simp
    · rename_i h; rw [decide_eq_false h]; simp
  · rw [if_neg hr1]
    by_cases hr : r = k
    · rw [if_pos hr, if_pos (Or.inl hr), BitVec.getLsbD_xor, BitVec.getLsbD_shiftLeft, BitVec.getLsbD_and, BitVec.getLsbD_xor, BitVec.getLsbD_ushiftRight, hr]
      unfold sw tb
      rw [if_pos h1, decide_eq_true hp]
      by_cases hpj : p < j
      · rw [decide_eq_true hpj, if_pos (by rw [Nat.mod_eq_of_lt (by omega)]; exact hpj)]
        simp
      · rw [decide_eq_false hpj, hm (p - j) (by omega), show j + (p - j) = p by omega]
        have : decide ((p - j) % (2 * j) < j) = !decide (p % (2 * j) < j) := by
          generalize hq : p / (2 * j) = q at hmod
          by_cases hc : p % (2 * j) < j
          · rw [decide_eq_true hc]
            have hq0 : 0 < q := by
              rcases Nat.eq_zero_or_pos q with h | h
              · rw [h, Nat.mul_zero] at hmod; omega
              · exact h
            obtain ⟨q', rfl⟩ : ∃ q', q = q' + 1 := ⟨q - 1, by omega⟩
            rw [Nat.mul_succ] at hmod
            have : (p - j) % (2 * j) = p % (2 * j) + j := by
              conv_lhs => rw [show p - j = p % (2 * j) + j + 2 * j * q' by omega]
              rw [Nat.add_mul_mod_self_left, Nat.mod_eq_of_lt (by omega)]
            rw [this, decide_eq_false (by omega)]; rfl
          · rw [decide_eq_false hc]
            have : (p - j) % (2 * j) = p % (2 * j) - j := by
              conv_lhs => rw [show p - j = p % (2 * j) - j + 2 * j * q by omega]
              rw [Nat.add_mul_mod_self_left, Nat.mod_eq_of_lt (by omega)]
            rw [this, decide_eq_true (by omega)]; rfl
        rw [this]
        split
        · rename_i h; rw [decide_eq_true h]; simp
        · rename_i h; rw [decide_eq_false h]; simp
    · rw [if_neg hr, if_neg (by omega)]

theorem swapStage_spec {j nb : Nat} {m : Word} {t : Mem Word} (hj : 0 < j) (hs : 2 * j * nb ≤ t.size) (hm : ∀ p < 64, m.getLsbD p = decide (p % (2 * j) < j)) :
    Ok (swapStage j nb m t) fun t' => t'.size = t.size ∧ ∀ r, ∀ p < 64, tb t' r p = if r / (2 * j) < nb then sw j t r p else tb t r p := by
  unfold swapStage
  refine Ok.forUp (P := fun b (t' : Mem Word) => t'.size = t.size ∧ ∀ r, ∀ p < 64, tb t' r p = if r / (2 * j) < b then sw j t r p else tb t r p)
    (Nat.zero_le _) ⟨rfl, fun r p _ => by rw [if_neg (Nat.not_lt_zero _)]⟩ ?_ (fun t' h => h)
  intro b t1 _ hb ⟨e1, e2⟩
  have hbs : 2 * j * b + 2 * j ≤ t.size := by
    have : 2 * j * (b + 1) ≤ 2 * j * nb := Nat.mul_le_mul_left _ hb
    rw [Nat.mul_succ] at this
    omega
  refine Ok.forUp (P := fun i (t' : Mem Word) => t'.size = t.size ∧ ∀ r, ∀ p < 64, tb t' r p =
      if r / (2 * j) < b ∨ (r / (2 * j) = b ∧ (r % (2 * j) < i ∨ (j ≤ r % (2 * j) ∧ r % (2 * j) < j + i))) then sw j t r p else tb t r p)
    (Nat.zero_le _) ⟨e1, fun r p hp => ?_⟩ ?_ ?_
  · rw [e2 r p hp]
    by_cases h : r / (2 * j) < b
    · rw [if_pos h, if_pos (Or.inl h)]
    · rw [if_neg h, if_neg (by omega)]
  · intro i t2 _ hi ⟨f1, f2⟩
    have k1 : (2 * j * b + i) / (2 * j) = b := by rw [Nat.mul_add_div (by omega), Nat.div_eq_of_lt (by omega), Nat.add_zero]
    have k2 : (2 * j * b + i) % (2 * j) = i := by rw [Nat.mul_add_mod, Nat.mod_eq_of_lt (by omega)]
    have k3 : (2 * j * b + i + j) / (2 * j) = b := by rw [Nat.add_assoc, Nat.mul_add_div (by omega), Nat.div_eq_of_lt (by omega), Nat.add_zero]
    have k4 : (2 * j * b + i + j) % (2 * j) = i + j := by rw [Nat.add_assoc, Nat.mul_add_mod, Nat.mod_eq_of_lt (by omega)]
    refine (swapPair_spec hj (by omega) hm (by omega) (by omega)).mono ?_
    intro t3 ⟨g1, g2⟩
    refine ⟨by omega, fun r p hp => ?_⟩
    have old1 : ∀ p < 64, tb t2 (2 * j * b + i) p = tb t (2 * j * b + i) p := fun p hp => by rw [f2 _ p hp, if_neg (by omega)]
    have old2 : ∀ p < 64, tb t2 (2 * j * b + i + j) p = tb t (2 * j * b + i + j) p := fun p hp => by rw [f2 _ p hp, if_neg (by omega)]
    have big : ∀ (u : Mem Word) r p, 64 ≤ p → tb u r p = false := fun u r p h => BitVec.getLsbD_of_ge _ _ h
    have old1' : ∀ p, tb t2 (2 * j * b + i) p = tb t (2 * j * b + i) p := fun p => by
      by_cases h : p < 64
      · exact old1 p h
      · rw [big _ _ _ (by omega), big _ _ _ (by omega)]
    have old2' : ∀ p, tb t2 (2 * j * b + i + j) p = tb t (2 * j * b + i + j) p := fun p => by
      by_cases h : p < 64
      · exact old2 p h
      · rw [big _ _ _ (by omega), big _ _ _ (by omega)]
    rw [g2 r p hp]
    have hr := Nat.div_add_mod r (2 * j)
    by_cases hk : r = 2 * j * b + i
    · rw [if_pos (Or.inl hk), hk, k1, k2, if_pos (by omega)]
      unfold sw
      rw [k2, old1', old2']
      simp only [hi, if_true]
    · by_cases hk' : r = 2 * j * b + i + j
      · rw [if_pos (Or.inr hk'), hk', k3, k4, if_pos (by omega)]
        unfold sw
        rw [k4, if_neg (show ¬ i + j < j by omega), if_neg (show ¬ i + j < j by omega), Nat.add_sub_cancel, old1', old2']
      · rw [if_neg (by omega), f2 r p hp]
        have : (r / (2 * j) < b ∨ (r / (2 * j) = b ∧ (r % (2 * j) < i ∨ (j ≤ r % (2 * j) ∧ r % (2 * j) < j + i)))) ↔
            (r / (2 * j) < b ∨ (r / (2 * j) = b ∧ (r % (2 * j) < i + 1 ∨ (j ≤ r % (2 * j) ∧ r % (2 * j) < j + (i + 1))))) := by
          by_cases hrb : r / (2 * j) = b
          · rw [hrb] at hr
            omega
          · omega
        by_cases hc : r / (2 * j) < b ∨ (r / (2 * j) = b ∧ (r % (2 * j) < i ∨ (j ≤ r % (2 * j) ∧ r % (2 * j) < j + i)))
        · rw [if_pos hc, if_pos (this.1 hc)]
        · rw [if_neg hc, if_neg (fun h => hc (this.2 h))]
  · intro t' ⟨f1, f2⟩
    refine ⟨f1, fun r p hp => ?_⟩
    rw [f2 r p hp]
    have hl : r % (2 * j) < 2 * j := Nat.mod_lt _ (by omega)
    by_cases h : r / (2 * j) < b + 1
    · rw [if_pos h, if_pos (by omega)]
    · rw [if_neg h, if_neg (by omega)]

/-! ## 64 words -/

/-- The blocks down to the size `j` have been exchanged. -/
def Down (j : Nat) (t0 t1 : Mem Word) : Prop := t1.size = 64 ∧ ∀ r < 64, ∀ p < 64, tb t1 r p = tb t0 (j * (p / j) + r % j) (j * (r / j) + p % j)

theorem down_step {j nb : Nat} {m : Word} {t0 t1 : Mem Word} (hj : j ∈ [1, 2, 4, 8, 16, 32]) (hnb : 2 * j * nb = 64)
    (hm : ∀ p < 64, m.getLsbD p = decide (p % (2 * j) < j)) (h : Down (2 * j) t0 t1) : Ok (swapStage j nb m t1) (Down j t0) := by
  have hj0 : 0 < j := by simp at hj; omega
  refine (swapStage_spec hj0 (by rw [h.1, hnb]) hm).mono ?_
  intro t2 ⟨e1, e2⟩
  refine ⟨by rw [e1, h.1], fun r hr p hp => ?_⟩
  rw [e2 r p hp, if_pos (by rw [Nat.div_lt_iff_lt_mul (by omega), Nat.mul_comm nb]; omega)]
  unfold sw
  have hb := h.2
  simp only [List.mem_cons, List.not_mem_nil, or_false] at hj
  rcases hj with rfl | rfl | rfl | rfl | rfl | rfl
  all_goals
    simp only [Nat.reduceMul] at hb ⊢
    split <;> split
    · rw [hb _ (by omega) _ (by omega)]; congr 1 <;> omega
    · rw [hb _ (by omega) _ (by omega)]; congr 1 <;> omega
    · rw [hb _ (by omega) _ (by omega)]; congr 1 <;> omega
    · rw [hb _ (by omega) _ (by omega)]; congr 1 <;> omega

theorem transpose64_spec {t : Mem Word} (ht : t.size = 64) : Ok (transpose64 t) fun t' => t'.size = 64 ∧ ∀ r < 64, ∀ p < 64, tb t' r p = tb t p r := by
  unfold transpose64
  simp only []
  have h64 : Down 64 t t := ⟨ht, fun r hr p hp => by congr 1 <;> omega⟩
  refine Ok.bind (down_step (j := 32) (by simp) (by rfl) (by decide) h64) fun t1 h1 => ?_
  refine Ok.bind (down_step (j := 16) (by simp) (by rfl) (by decide) h1) fun t2 h2 => ?_
  refine Ok.bind (down_step (j := 8) (by simp) (by rfl) (by decide) h2) fun t3 h3 => ?_
  refine Ok.bind (down_step (j := 4) (by simp) (by rfl) (by decide) h3) fun t4 h4 => ?_
  refine Ok.bind (down_step (j := 2) (by simp) (by rfl) (by decide) h4) fun t5 h5 => ?_
  refine (down_step (j := 1) (by simp) (by rfl) (by decide) h5).mono fun t6 h6 => ⟨h6.1, fun r hr p hp => ?_⟩
  rw [h6.2 r hr p hp]
  congr 1 <;> omega

/-! ## Fewer words -/

/-- The blocks below the size `2^s` have been exchanged, as far as the source lies in the first `n` words. -/
def Up (n s : Nat) (t0 t1 : Mem Word) : Prop := t1.size = t0.size ∧ ∀ r, ∀ p < 64, 2 ^ s * (r / 2 ^ s) + p % 2 ^ s < n →
  tb t1 r p = tb t0 (2 ^ s * (r / 2 ^ s) + p % 2 ^ s) (2 ^ s * (p / 2 ^ s) + r % 2 ^ s)

theorem mask_bits : ∀ s < 6, ∃ m, transpose_mask s = .ok m ∧ ∀ p < 64, m.getLsbD p = decide (p % (2 * 2 ^ s) < 2 ^ s) := by
  intro s hs
  interval_cases s
  · exact ⟨_, rfl, by decide⟩
  · exact ⟨_, rfl, by decide⟩
  · exact ⟨_, rfl, by decide⟩
  · exact ⟨_, rfl, by decide⟩
  · exact ⟨_, rfl, by decide⟩
  · exact ⟨_, rfl, by decide⟩

theorem up_step {n s : Nat} {m : Word} {t0 t1 : Mem Word} (hs : s < 5) (hsz : 2 * 2 ^ s * ((n + 2 * 2 ^ s - 1) / (2 * 2 ^ s)) ≤ t0.size)
    (hm : ∀ p < 64, m.getLsbD p = decide (p % (2 * 2 ^ s) < 2 ^ s)) (h : Up n s t0 t1) :
    Ok (swapStage (2 ^ s) ((n + 2 * 2 ^ s - 1) / (2 * 2 ^ s)) m t1) (Up n (s + 1) t0) := by
  refine (swapStage_spec (Nat.two_pow_pos s) (by rw [h.1]; exact hsz) hm).mono ?_
  intro t2 ⟨e1, e2⟩
  refine ⟨by rw [e1, h.1], fun r p hp hn => ?_⟩
  rw [e2 r p hp]
  have hb := h.2
  unfold sw
  clear e1 e2 hm hsz h
  interval_cases s
  all_goals
    simp only [Nat.reducePow, Nat.reduceMul, Nat.reduceAdd] at hb hn ⊢
    rw [if_pos (by omega)]
    split <;> split
    · rw [hb _ _ (by omega) (by omega)]; congr 1 <;> omega
    · rw [hb _ _ (by omega) (by omega)]; congr 1 <;> omega
    · rw [hb _ _ (by omega) (by omega)]; congr 1 <;> omega
    · rw [hb _ _ (by omega) (by omega)]; congr 1 <;> omega

theorem transposeN_spec {n : Nat} {t0 : Mem Word} (hn : n ≤ 32) (hsz : ∀ s < 5, 2 ^ s < n → 2 * 2 ^ s * ((n + 2 * 2 ^ s - 1) / (2 * 2 ^ s)) ≤ t0.size) :
    ∀ fuel s t1, 6 ≤ fuel + s → s ≤ 5 → (s = 0 ∨ 2 ^ (s - 1) < n) → Up n s t0 t1 → Ok (transposeN n (fuel + 1) s t1) fun q =>
      q.1 ≤ 5 ∧ n ≤ 2 ^ q.1 ∧ (q.1 = 0 ∨ 2 ^ (q.1 - 1) < n) ∧ Up n q.1 t0 q.2 := by
  intro fuel
  induction fuel with
  | zero =>
    intro s t1 h1 h2
    omega
  | succ fuel ih =>
    intro s t1 h1 h2 h3 h4
    rw [transposeN]
    by_cases hlt : 2 ^ s < n
    · have hs : s < 5 := by
        by_contra hc
        obtain rfl : s = 5 := by omega
        omega
      rw [if_pos hlt]
      obtain ⟨m, hm, hm'⟩ := mask_bits s (by omega)
      rw [hm, C_ok_bind]
      exact Ok.bind (up_step hs (hsz s hs hlt) hm' h4) fun t2 h5 => ih (s + 1) t2 (by omega) (by omega) (Or.inr (by simpa using hlt)) h5
    · rw [if_neg hlt, Ok.pure_iff]
      exact ⟨h2, Nat.le_of_not_lt hlt, h3, h4⟩

/-- `_mzd_transpose_Nxjx64`. -/
theorem transpose_Nxjx64_spec {n : Nat} {t : Mem Word} (hn : n ≤ 32) (hsz : ∀ s < 5, 2 ^ s < n → 2 * 2 ^ s * ((n + 2 * 2 ^ s - 1) / (2 * 2 ^ s)) ≤ t.size) :
    Ok (transpose_Nxjx64 t n) fun q => q.1 ≤ 5 ∧ n ≤ 2 ^ q.1 ∧ (q.1 = 0 ∨ 2 ^ (q.1 - 1) < n) ∧ q.2.size = t.size ∧
      ∀ r < 2 ^ q.1, ∀ p < 64, p % 2 ^ q.1 < n → tb q.2 r p = tb t (p % 2 ^ q.1) (2 ^ q.1 * (p / 2 ^ q.1) + r) := by
  refine (transposeN_spec hn hsz 7 0 t (by omega) (by omega) (Or.inl rfl) ⟨rfl, fun r p _ _ => by congr 1 <;> simp [Nat.mod_one]⟩).mono ?_
  intro q ⟨h1, h2, h3, h4, h5⟩
  refine ⟨h1, h2, h3, h4, fun r hr p hp hpn => ?_⟩
  have := h5 r p hp
  rw [Nat.div_eq_of_lt hr, Nat.mul_zero, Nat.zero_add, Nat.mod_eq_of_lt hr] at this
  exact this hpn

end WB.m4w
