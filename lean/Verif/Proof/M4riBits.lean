import Verif.Model.M4riBits
import Verif.Proof.M4riCompress

/-!
# Groups of bits and the hash of a matrix (helper lemmas)
-/
namespace WB.m4w

variable {M : Mzd}

/-- Two neighbouring words are written. -/
theorem bit_set2 (M : Mzd) (i j : Nat) (u v : Word) (a b : Nat) :
    ((M.set i j u).set i (j + 1) v).bit a b = if a = i ∧ b / 64 = j then u.getLsbD (b % 64) else if a = i ∧ b / 64 = j + 1 then v.getLsbD (b % 64) else M.bit a b := by
  rw [bit_set, bit_set]
  split_ifs <;> first | rfl | omega

/-- What happens when a group of bits is changed by `f` in one or two words. -/
theorem group_words (w : M.Wf) {i y n : Nat} (hi : i < M.nrows) (hn : 0 < n) (hn' : n ≤ 64) (hy : (y + n - 1) / 64 < M.width) (f : Word → Word → Word) (u v : Word) :
    Ok (do let M' ← M.put i (y / 64) (f (← M.get i (y / 64)) u)
           if 64 - y % 64 < n then M'.put i (y / 64 + 1) (f (← M'.get i (y / 64 + 1)) v) else pure M' : C Mzd)
      fun N => Sh M N ∧ ∀ a b, N.bit a b = if a = i ∧ b / 64 = y / 64 then (f (M.word i (y / 64)) u).getLsbD (b % 64)
        else if a = i ∧ b / 64 = y / 64 + 1 ∧ 64 - y % 64 < n then (f (M.word i (y / 64 + 1)) v).getLsbD (b % 64) else M.bit a b := by
  have hat := w.at (i := i) (j := y / 64) hi (by omega)
  rw [get_eq hat, C_ok_bind, put_eq _ hat, C_ok_bind]
  have sh := Sh.set M i (y / 64) (f (M.word i (y / 64)) u)
  by_cases h : 64 - y % 64 < n
  · have hat' := (sh.wf w).at (i := i) (j := y / 64 + 1) (by rw [sh.nrows]; exact hi) (by rw [sh.width]; omega)
    rw [if_pos h, get_eq hat', C_ok_bind, put_eq _ hat', Ok.ok_iff]
    refine ⟨sh.trans (Sh.set _ _ _ _), fun a b => ?_⟩
    have e : (M.set i (y / 64) (f (M.word i (y / 64)) u)).word i (y / 64 + 1) = M.word i (y / 64 + 1) := by rw [word_set, if_neg (by omega)]
    rw [bit_set2, e]
    split_ifs <;> first | rfl | omega
  · rw [if_neg h, Ok.pure_iff]
    refine ⟨sh, fun a b => ?_⟩
    rw [bit_set]
    split_ifs <;> first | rfl | omega

theorem xor_bits_all (w : M.Wf) {i y n : Nat} (hi : i < M.nrows) (hn : 0 < n) (hn' : n ≤ 64) (hy : (y + n - 1) / 64 < M.width) {v : Word} (hv : ∀ t, n ≤ t → v.getLsbD t = false) :
    Ok (mzd_xor_bits M i y n v) fun N => Sh M N ∧ ∀ a b, N.bit a b = (M.bit a b ^^ (decide (a = i ∧ y ≤ b ∧ b < y + n) && v.getLsbD (b - y))) := by
  unfold mzd_xor_bits
  refine (group_words w hi hn hn' hy (fun a b => a ^^^ b) (v <<< (y % 64)) (v >>> (64 - y % 64))).mono ?_
  intro N ⟨sh, h⟩
  refine ⟨sh, fun a b => ?_⟩
  rw [h]
  have h64 : b % 64 < 64 := Nat.mod_lt _ (by omega)
  by_cases h1 : a = i ∧ b / 64 = y / 64
  · rw [if_pos h1]
    show ((M.word i (y / 64)) ^^^ (v <<< (y % 64))).getLsbD (b % 64) = _
    rw [BitVec.getLsbD_xor, BitVec.getLsbD_shiftLeft, ← h1.2, ← h1.1, decide_eq_true h64]
    show ((M.bit a b) ^^ _) = _
    by_cases hb : y ≤ b
    · rw [decide_eq_false (show ¬ b % 64 < y % 64 by omega), show b % 64 - y % 64 = b - y by omega]
      by_cases hb2 : b < y + n
      · rw [decide_eq_true ⟨rfl, hb, hb2⟩]; simp
      · rw [hv _ (by omega)]; simp
    · rw [decide_eq_true (show b % 64 < y % 64 by omega), decide_eq_false (show ¬ (a = a ∧ y ≤ b ∧ b < y + n) by omega)]; simp
  rw [if_neg h1]
  by_cases h2 : a = i ∧ b / 64 = y / 64 + 1 ∧ 64 - y % 64 < n
  · rw [if_pos h2]
    show ((M.word i (y / 64 + 1)) ^^^ (v >>> (64 - y % 64))).getLsbD (b % 64) = _
    rw [BitVec.getLsbD_xor, BitVec.getLsbD_ushiftRight, ← h2.2.1, ← h2.1]
    show ((M.bit a b) ^^ _) = _
    rw [show 64 - y % 64 + b % 64 = b - y by omega]
    by_cases hb2 : b < y + n
    · rw [decide_eq_true ⟨rfl, by omega, hb2⟩]; simp
    · rw [hv _ (by omega)]; simp
  · rw [if_neg h2, decide_eq_false (by omega)]; simp

theorem clear_bits_all (w : M.Wf) {i y n : Nat} (hi : i < M.nrows) (hn : 0 < n) (hn' : n ≤ 64) (hy : (y + n - 1) / 64 < M.width) :
    Ok (mzd_clear_bits M i y n) fun N => Sh M N ∧ ∀ a b, N.bit a b = if a = i ∧ y ≤ b ∧ b < y + n then false else M.bit a b := by
  unfold mzd_clear_bits
  rw [if_neg (by omega)]
  refine (group_words w hi hn hn' hy (fun a b => a &&& ~~~b) ((ffff >>> (64 - n)) <<< (y % 64)) ((ffff >>> (64 - n)) >>> (64 - y % 64))).mono ?_
  intro N ⟨sh, h⟩
  refine ⟨sh, fun a b => ?_⟩
  rw [h]
  have h64 : b % 64 < 64 := Nat.mod_lt _ (by omega)
  have hf : ffff = BitVec.allOnes 64 := by decide
  by_cases h1 : a = i ∧ b / 64 = y / 64
  · rw [if_pos h1]
    show ((M.word i (y / 64)) &&& ~~~((ffff >>> (64 - n)) <<< (y % 64))).getLsbD (b % 64) = _
    rw [BitVec.getLsbD_and, BitVec.getLsbD_not, BitVec.getLsbD_shiftLeft, BitVec.getLsbD_ushiftRight, hf, BitVec.getLsbD_allOnes, ← h1.2, ← h1.1, decide_eq_true h64]
    show (M.bit a b && _) = _
    by_cases hb : y ≤ b
    · rw [decide_eq_false (show ¬ b % 64 < y % 64 by omega)]
      by_cases hb2 : b < y + n
      · rw [if_pos ⟨rfl, hb, hb2⟩, decide_eq_true (by omega)]; simp
      · rw [if_neg (by omega), decide_eq_false (by omega)]; simp
    · rw [decide_eq_true (show b % 64 < y % 64 by omega), if_neg (by omega)]; simp
  rw [if_neg h1]
  by_cases h2 : a = i ∧ b / 64 = y / 64 + 1 ∧ 64 - y % 64 < n
  · rw [if_pos h2]
    show ((M.word i (y / 64 + 1)) &&& ~~~((ffff >>> (64 - n)) >>> (64 - y % 64))).getLsbD (b % 64) = _
    rw [BitVec.getLsbD_and, BitVec.getLsbD_not, BitVec.getLsbD_ushiftRight, BitVec.getLsbD_ushiftRight, hf, BitVec.getLsbD_allOnes, ← h2.2.1, ← h2.1, decide_eq_true h64]
    show (M.bit a b && _) = _
    by_cases hb2 : b < y + n
    · rw [if_pos ⟨rfl, by omega, hb2⟩, decide_eq_true (by omega)]; simp
    · rw [if_neg (by omega), decide_eq_false (by omega)]; simp
  · rw [if_neg h2, if_neg (by omega)]

theorem and_bits_all (w : M.Wf) {i y n : Nat} (hi : i < M.nrows) (hn : 0 < n) (hn' : n ≤ 64) (hy : (y + n - 1) / 64 < M.width) (v : Word) :
    Ok (mzd_and_bits M i y n v) fun N => Sh M N ∧ ∀ a b, N.bit a b =
      if a = i ∧ y / 64 ≤ b / 64 ∧ b / 64 ≤ (y + n - 1) / 64 then (M.bit a b && (decide (y ≤ b ∧ b < y + n) && v.getLsbD (64 - n + (b - y)))) else M.bit a b := by
  unfold mzd_and_bits
  rw [if_neg (by omega)]
  refine (group_words w hi hn hn' hy (fun a b => a &&& b) ((v >>> (64 - n)) <<< (y % 64)) ((v >>> (64 - n)) >>> (64 - y % 64))).mono ?_
  intro N ⟨sh, h⟩
  refine ⟨sh, fun a b => ?_⟩
  rw [h]
  have h64 : b % 64 < 64 := Nat.mod_lt _ (by omega)
  by_cases h1 : a = i ∧ b / 64 = y / 64
  · rw [if_pos h1, if_pos (by omega)]
    show ((M.word i (y / 64)) &&& ((v >>> (64 - n)) <<< (y % 64))).getLsbD (b % 64) = _
    rw [BitVec.getLsbD_and, BitVec.getLsbD_shiftLeft, BitVec.getLsbD_ushiftRight, ← h1.2, ← h1.1, decide_eq_true h64]
    show (M.bit a b && _) = _
    by_cases hb : y ≤ b
    · rw [decide_eq_false (show ¬ b % 64 < y % 64 by omega), show b % 64 - y % 64 = b - y by omega]
      by_cases hb2 : b < y + n
      · rw [decide_eq_true ⟨hb, hb2⟩]; simp
      · rw [BitVec.getLsbD_of_ge _ _ (show 64 ≤ 64 - n + (b - y) by omega)]; simp
    · rw [decide_eq_true (show b % 64 < y % 64 by omega), decide_eq_false (show ¬ (y ≤ b ∧ b < y + n) by omega)]; simp
  rw [if_neg h1]
  by_cases h2 : a = i ∧ b / 64 = y / 64 + 1 ∧ 64 - y % 64 < n
  · rw [if_pos h2, if_pos (by omega)]
    show ((M.word i (y / 64 + 1)) &&& ((v >>> (64 - n)) >>> (64 - y % 64))).getLsbD (b % 64) = _
    rw [BitVec.getLsbD_and, BitVec.getLsbD_ushiftRight, BitVec.getLsbD_ushiftRight, ← h2.2.1, ← h2.1]
    show (M.bit a b && _) = _
    rw [show 64 - n + (64 - y % 64 + b % 64) = 64 - n + (b - y) by omega]
    by_cases hb2 : b < y + n
    · rw [decide_eq_true ⟨by omega, hb2⟩]; simp
    · rw [BitVec.getLsbD_of_ge _ _ (show 64 ≤ 64 - n + (b - y) by omega)]; simp
  · rw [if_neg h2, if_neg (by omega)]

/-! ## The hash -/

/-- The sum of the first `k` words of a row. -/
def wordSum (M : Mzd) (i : Nat) : Nat → Word
  | 0 => 0#64
  | k + 1 => wordSum M i k ^^^ M.word i k

theorem calculate_hash_eq (w : M.Wf) {i : Nat} (hi : i < M.nrows) : calculate_hash M i = .ok (wordSum M i M.width) := by
  unfold calculate_hash
  have h : Ok (forUp 0 M.width 0#64 fun j hash => do pure (hash ^^^ (← M.get i j)) : C Word) fun v => v = wordSum M i M.width := by
    refine Ok.forUp (P := fun k v => v = wordSum M i k) (Nat.zero_le _) rfl ?_ (fun _ h => h)
    intro j v _ hj hv
    rw [get_eq (w.at hi hj), C_ok_bind, Ok.pure_iff, hv]
    rfl
  obtain ⟨v, e, hv⟩ := h
  rw [e, hv]

/-- A loop whose steps return a value or fail in one way fails that way if one of them does. -/
theorem forUp_fail {σ : Type} {e : Fault} {f : Nat → σ → C σ} {lo hi : Nat} (h : ∀ i s, lo ≤ i → i < hi → (∃ t, f i s = .ok t) ∨ f i s = .error e) {i0 : Nat} (h1 : lo ≤ i0) (h2 : i0 < hi)
    (h0 : ∀ s, f i0 s = .error e) (s : σ) : forUp lo hi s f = .error e := by
  unfold forUp
  obtain ⟨k, hk⟩ : ∃ k, hi - lo = k := ⟨_, rfl⟩
  rw [hk]
  induction k generalizing lo s with
  | zero => omega
  | succ k ih =>
    rw [List.range'_succ, List.foldlM_cons]
    rcases h lo s (Nat.le_refl _) (by omega) with ⟨t, ht⟩ | ht
    · rw [ht]
      show List.foldlM _ t _ = _
      have : lo ≠ i0 := fun g => by rw [g, h0] at ht; exact absurd ht (by simp)
      exact ih (lo := lo + 1) (fun i s a b => h i s (by omega) b) (by omega) t (by omega)
    · rw [ht]; rfl

/-- A loop whose steps return a value returns one. -/
theorem forUp_total {σ : Type} {f : Nat → σ → C σ} {lo hi : Nat} (h : ∀ i s, lo ≤ i → i < hi → ∃ t, f i s = .ok t) (hle : lo ≤ hi) (s : σ) : ∃ t, forUp lo hi s f = .ok t := by
  obtain ⟨t, e, _⟩ := Ok.forUp (P := fun _ _ => True) (Q := fun _ => True) (s := s) (f := f) hle trivial (fun i s a b _ => (h i s a b).elim fun t ht => ⟨t, ht, trivial⟩) (fun _ _ => trivial)
  exact ⟨t, e⟩

theorem hash_eq (w : M.Wf) : mzd_hash M = forUp 0 M.nrows 0#64 (fun r hash => do pure (hash ^^^ (← rotate_word (wordSum M r M.width) (r % 64)))) := by
  unfold mzd_hash
  refine forUp_congr _ fun i s _ hi => ?_
  rw [calculate_hash_eq w hi, C_ok_bind]

/-- When a value is returned. -/
theorem hash_cases (w : M.Wf) :
    ((∀ i < M.nrows, 1 ≤ (wordSum M i M.width).toNat ∧ (wordSum M i M.width).toNat ≤ 64) → ∃ h, mzd_hash M = .ok h) ∧
    (¬ (∀ i < M.nrows, 1 ≤ (wordSum M i M.width).toNat ∧ (wordSum M i M.width).toNat ≤ 64) → mzd_hash M = .error .overflow) := by
  rw [hash_eq w]
  have hy : ∀ r (s : Word), (1 ≤ (wordSum M r M.width).toNat ∧ (wordSum M r M.width).toNat ≤ 64) →
      ∃ t, (do pure (s ^^^ (← rotate_word (wordSum M r M.width) (r % 64))) : C Word) = .ok t := by
    intro r s h
    unfold rotate_word
    rw [if_pos h]
    exact ⟨_, rfl⟩
  have hn : ∀ r (s : Word), ¬ (1 ≤ (wordSum M r M.width).toNat ∧ (wordSum M r M.width).toNat ≤ 64) →
      (do pure (s ^^^ (← rotate_word (wordSum M r M.width) (r % 64))) : C Word) = .error .overflow := by
    intro r s h
    unfold rotate_word
    rw [if_neg h]
    rfl
  constructor
  · intro h
    exact forUp_total (fun i s _ hi => hy i s (h i hi)) (Nat.zero_le _) _
  · intro h
    push Not at h
    obtain ⟨i, hi, h0⟩ := h
    refine forUp_fail (fun r s _ _ => ?_) (Nat.zero_le i) hi (fun s => hn i s (fun g => absurd (h0 g.1) (by omega))) _
    by_cases g : 1 ≤ (wordSum M r M.width).toNat ∧ (wordSum M r M.width).toNat ≤ 64
    · exact .inl (hy r s g)
    · exact .inr (hn r s g)

theorem wordSum_congr {N : Mzd} {i : Nat} : ∀ k, (∀ j < k, M.word i j = N.word i j) → wordSum M i k = wordSum N i k
  | 0, _ => rfl
  | k + 1, h => by
    show wordSum M i k ^^^ M.word i k = wordSum N i k ^^^ N.word i k
    rw [wordSum_congr k fun j hj => h j (by omega), h k (by omega)]

theorem wordSum_bit (i b : Nat) (hb : b < 64) : ∀ k, bitF ((wordSum M i k).getLsbD b) = ∑ j ∈ Finset.range k, bitF (M.bit i (64 * j + b))
  | 0 => by simp [wordSum, bitF]
  | k + 1 => by
    show bitF ((wordSum M i k ^^^ M.word i k).getLsbD b) = _
    rw [BitVec.getLsbD_xor, Finset.sum_range_succ, ← wordSum_bit i b hb k]
    have e : M.bit i (64 * k + b) = (M.word i k).getLsbD b := by unfold Mzd.bit; rw [show (64 * k + b) / 64 = k by omega, show (64 * k + b) % 64 = b by omega]
    rw [e]
    cases (wordSum M i k).getLsbD b <;> cases (M.word i k).getLsbD b <;> decide

end WB.m4w
