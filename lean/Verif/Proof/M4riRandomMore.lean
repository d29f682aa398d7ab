import Verif.Model.M4riRandom
import Verif.Proof.M4riRandom
import Verif.Proof.M4riRow
import Verif.Proof.M4riTrsmMat

/-!
# Random bits, words and matrices in M4RI (helper lemmas)
-/
namespace WB.m4w

/-! ## Words with `_MSC_VER` -/

/-- The exclusive or of the first `n` shifted results. -/
def mscFold (rnd : Nat → BitVec 15) (n : Nat) : Word := (List.range n).foldl (fun a k => a ^^^ ((rnd k).setWidth 64 <<< (8 * k))) 0#64

theorem mscFold_succ (rnd : Nat → BitVec 15) (n : Nat) : mscFold rnd (n + 1) = mscFold rnd n ^^^ ((rnd n).setWidth 64 <<< (8 * n)) := by
  unfold mscFold; rw [List.range_succ, List.foldl_append]; rfl

theorem mscFold_xor (d e : Nat → BitVec 15) (n : Nat) : mscFold (fun k => d k ^^^ e k) n = mscFold d n ^^^ mscFold e n := by
  induction n with
  | zero => exact (BitVec.xor_self).symm
  | succ n ih =>
    rw [mscFold_succ, mscFold_succ, mscFold_succ, ih, BitVec.setWidth_xor, BitVec.shiftLeft_xor_distrib]
    generalize (d n).setWidth 64 <<< (8 * n) = x, (e n).setWidth 64 <<< (8 * n) = y
    ext i hi
    simp only [BitVec.getElem_xor]
    cases (mscFold d n)[i] <;> cases (mscFold e n)[i] <;> cases x[i] <;> cases y[i] <;> rfl

/-- Results of `rand` that give the word `w`. -/
def mscDraw (w : Word) (k : Nat) : BitVec 15 := ((w >>> (8 * k)).setWidth 8).setWidth 15

theorem mscFold_draw (w : Word) (n : Nat) {b : Nat} (hb : b < 64) : (mscFold (mscDraw w) n).getLsbD b = (decide (b < 8 * n) && w.getLsbD b) := by
  induction n with
  | zero => simp [mscFold]
  | succ n ih =>
    rw [mscFold_succ, BitVec.getLsbD_xor, ih]
    unfold mscDraw
    simp only [BitVec.getLsbD_shiftLeft, BitVec.getLsbD_setWidth, BitVec.getLsbD_ushiftRight]
    by_cases h1 : b < 8 * n
    · rw [decide_eq_true h1, decide_eq_true (show b < 8 * (n + 1) by omega)]; simp
    · rw [decide_eq_false h1, decide_eq_true hb, decide_eq_true (show b - 8 * n < 64 by omega), show 8 * n + (b - 8 * n) = b by omega]
      by_cases h2 : b < 8 * (n + 1)
      · rw [decide_eq_true h2, decide_eq_true (show b - 8 * n < 8 by omega), decide_eq_true (show b - 8 * n < 15 by omega)]; simp
      · rw [decide_eq_false h2, decide_eq_false (show ¬ b - 8 * n < 8 by omega)]; simp

/-- Eight results of `rand`, continued by zeros. -/
def mscSeq (d : Fin 8 → BitVec 15) (k : Nat) : BitVec 15 := if h : k < 8 then d ⟨k, h⟩ else 0

theorem msc_congr {d e : Nat → BitVec 15} (n : Nat) (h : ∀ k < n, d k = e k) : mscFold d n = mscFold e n := by
  induction n with
  | zero => rfl
  | succ n ih => rw [mscFold_succ, mscFold_succ, ih (fun k hk => h k (by omega)), h n (by omega)]

theorem msc_xor (d e : Fin 8 → BitVec 15) : m4ri_random_word_msc (mscSeq fun k => d k ^^^ e k) = m4ri_random_word_msc (mscSeq d) ^^^ m4ri_random_word_msc (mscSeq e) := by
  refine Eq.trans ?_ (mscFold_xor (mscSeq d) (mscSeq e) 8)
  refine msc_congr 8 fun k hk => ?_
  simp only [mscSeq, dif_pos hk]

theorem msc_draw (w : Word) : m4ri_random_word_msc (mscSeq fun k => mscDraw w k) = w := by
  have h : m4ri_random_word_msc (mscSeq fun k => mscDraw w k) = mscFold (mscDraw w) 8 := msc_congr 8 fun k hk => by simp only [mscSeq, dif_pos hk]
  rw [h]
  refine bit_ext fun b hb => ?_
  rw [mscFold_draw w 8 hb, decide_eq_true (show b < 8 * 8 by omega), Bool.true_and]

theorem msc_fibre (w : Word) : Nat.card {d : Fin 8 → BitVec 15 // m4ri_random_word_msc (mscSeq d) = w} * 2 ^ 64 = 2 ^ 120 := by
  have hc : Nat.card (Fin 8 → BitVec 15) = 2 ^ 120 := by rw [Nat.card_fun, card_bitvec, Nat.card_eq_fintype_card, Fintype.card_fin]; norm_num
  rw [← hc, ← card_bitvec 64]
  exact fibre_card (fun d : Fin 8 → BitVec 15 => m4ri_random_word_msc (mscSeq d)) 0#64 (fibreEquiv (fun d : Fin 8 → BitVec 15 => m4ri_random_word_msc (mscSeq d)) (fun d e k => d k ^^^ e k) (· ^^^ ·) 0#64 (fun w k => mscDraw w k) msc_draw msc_xor
    (fun d e => funext fun k => by simp only [BitVec.xor_assoc, BitVec.xor_self, BitVec.xor_zero]) (fun b => BitVec.xor_self) (fun b => BitVec.zero_xor)) w

/-! ## Matrices from a callback -/

theorem custom_spec {σ : Type} {A : Mzd} (w : A.Wf) (h0 : 0 < A.ncols) (rc : σ → Word × σ) (data : σ) (st : Nat → σ) (st0 : st 0 = data) (st1 : ∀ n, st (n + 1) = (rc (st n)).2) :
    Ok (mzd_randomize_custom A rc data) fun N => N.2 = st (A.nrows * A.width) ∧ Sh A N.1 ∧
      ∀ a b, N.1.bit a b = if a < A.nrows ∧ b < A.ncols then (rc (st (a * A.width + b / 64))).1.getLsbD (b % 64) else A.bit a b := by
  unfold mzd_randomize_custom
  have hw := width_pos h0
  refine Ok.forUp (P := fun i (s : Mzd × σ) => s.2 = st (i * A.width) ∧ Sh A s.1 ∧
      ∀ a b, s.1.bit a b = if a < i ∧ b < A.ncols then (rc (st (a * A.width + b / 64))).1.getLsbD (b % 64) else A.bit a b)
    (Nat.zero_le _) ⟨by rw [Nat.zero_mul, st0], Sh.refl _, fun a b => by rw [if_neg (by omega)]⟩ ?_ (fun s h => h)
  intro i s _ hi ⟨hs2, sh, hs⟩
  refine Ok.bind (P := fun t : Mzd × σ => t.2 = st (i * A.width + (A.width - 1)) ∧ Sh A t.1 ∧
    ∀ a b, t.1.word a b = if a = i ∧ 0 ≤ b ∧ b < A.width - 1 then (rc (st (i * A.width + b))).1 else s.1.word a b) ?_ ?_
  · refine Ok.forUp (P := fun j (t : Mzd × σ) => t.2 = st (i * A.width + j) ∧ Sh A t.1 ∧
        ∀ a b, t.1.word a b = if a = i ∧ 0 ≤ b ∧ b < j then (rc (st (i * A.width + b))).1 else s.1.word a b)
      (Nat.zero_le _) ⟨hs2, sh, fun a b => by rw [if_neg (by omega)]⟩ ?_ (fun s h => h)
    intro j t _ hj ⟨ht2, sht, ht⟩
    have hat := (sht.wf w).at (i := i) (j := j) (by rw [sht.nrows]; exact hi) (by rw [sht.width]; omega)
    rw [put_eq _ hat, C_ok_bind, Ok.pure_iff]
    refine ⟨by show (rc t.2).2 = _; rw [ht2, ← st1]; rfl, sht.trans (Sh.set _ _ _ _), fun a b => ?_⟩
    show (t.1.set i j (rc t.2).1).word a b = _
    rw [word_set, ht, ht2]
    by_cases h : a = i ∧ b = j
    · rw [if_pos h, if_pos (by omega), h.2]
    · rw [if_neg h]
      exact if_congr (by omega) rfl rfl
  intro t ⟨ht2, sht, ht⟩
  have hat := (sht.wf w).at (i := i) (j := A.width - 1) (by rw [sht.nrows]; exact hi) (by rw [sht.width]; omega)
  rw [get_eq hat, C_ok_bind, put_eq _ hat, C_ok_bind, Ok.pure_iff]
  refine ⟨?_, sht.trans (Sh.set _ _ _ _), fun a b => ?_⟩
  · show (rc t.2).2 = _
    rw [ht2, ← st1, Nat.add_mul, Nat.one_mul, show i * A.width + (A.width - 1) + 1 = i * A.width + A.width by omega]
  rw [bit_set, bit_of_word ht, ht, if_neg (show ¬ (i = i ∧ 0 ≤ A.width - 1 ∧ A.width - 1 < A.width - 1) by omega), ht2]
  by_cases ha : a = i
  · subst ha
    rcases Nat.lt_trichotomy (b / 64) (A.width - 1) with hb | hb | hb
    · rw [if_neg (by omega), if_pos ⟨rfl, by omega, hb⟩, if_pos ⟨by omega, lt_of_not_last hb⟩]
    · rw [if_pos ⟨rfl, hb⟩, BitVec.getLsbD_xor, BitVec.getLsbD_and, BitVec.getLsbD_xor, high_bit A hb h0, bit_def s.1 hb, hs,
        if_neg (show ¬ (a < a ∧ b < A.ncols) by omega), ← hb]
      by_cases hc : b < A.ncols
      · rw [if_pos ⟨by omega, hc⟩, decide_eq_true hc, Bool.and_true]
        cases A.bit a b <;> simp
      · rw [if_neg (by omega), decide_eq_false hc]; simp
    · rw [if_neg (by omega), if_neg (by omega), if_neg (fun h => by have := lt_width h.2; omega), hs, if_neg (by omega)]
  · rw [if_neg (fun h => ha h.1), if_neg (fun h => ha h.1), hs]
    exact if_congr ⟨fun h => ⟨by omega, h.2⟩, fun h => ⟨by omega, h.2⟩⟩ rfl rfl

/-! ## Bits -/

theorem coin_zero (R : Nat) : Nat.card {r : Fin (R + 1) // m4ri_coin_flip R r = 0} = R / 2 := by
  have e : {r : Fin (R + 1) // m4ri_coin_flip R r = 0} ≃ Fin (R / 2) :=
    ⟨fun r => ⟨r.1, by have h := r.2; unfold m4ri_coin_flip at h; by_contra hc; rw [if_neg hc] at h; exact absurd h (by decide)⟩,
      fun r => ⟨⟨r.1, by have := r.2; omega⟩, if_pos r.2⟩, fun _ => rfl, fun _ => rfl⟩
  rw [Nat.card_congr e, Nat.card_eq_fintype_card, Fintype.card_fin]

theorem coin_one (R : Nat) : Nat.card {r : Fin (R + 1) // m4ri_coin_flip R r = 1} = R + 1 - R / 2 := by
  have e : {r : Fin (R + 1) // m4ri_coin_flip R r = 1} ≃ Fin (R + 1 - R / 2) :=
    ⟨fun r => ⟨r.1.1 - R / 2, by have h := r.2; have := r.1.2; unfold m4ri_coin_flip at h; split at h <;> omega⟩,
      fun r => ⟨⟨r.1 + R / 2, by have := r.2; omega⟩, if_neg (show ¬ r.1 + R / 2 < R / 2 by omega)⟩,
      fun r => by
        have h := r.2
        unfold m4ri_coin_flip at h
        refine Subtype.ext (Fin.ext ?_)
        show r.1.1 - R / 2 + R / 2 = r.1.1
        split at h <;> omega,
      fun r => Fin.ext (by show r.1 + R / 2 - R / 2 = r.1; omega)⟩
  rw [Nat.card_congr e, Nat.card_eq_fintype_card, Fintype.card_fin]

end WB.m4w
