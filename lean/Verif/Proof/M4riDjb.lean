import Mathlib.Logic.Equiv.Basic
import Verif.Model.M4riDjb
import Verif.Proof.M4riPerm

/-!
# The heap of rows in M4RI's `djb.c` (helper lemmas)
-/
namespace WB.m4w

open WB.cmp (Mem Mem2)

/-- A row as a number: its first words -/
def rowVal (A : Mzd) (a : Nat) : Nat → Nat
  | 0 => 0
  | j + 1 => 2 ^ (64 * j) * (A.word a j).toNat + rowVal A a j

theorem rowVal_succ (A : Mzd) (a j : Nat) : rowVal A a (j + 1) = 2 ^ (64 * j) * (A.word a j).toNat + rowVal A a j := rfl

theorem rowVal_lt (A : Mzd) (a : Nat) : ∀ j, rowVal A a j < 2 ^ (64 * j)
  | 0 => by simp [rowVal]
  | j + 1 => by
    have h1 := rowVal_lt A a j
    have h2 := (A.word a j).isLt
    have h3 : (2 : Nat) ^ (64 * (j + 1)) = 2 ^ (64 * j) * 2 ^ 64 := by rw [← pow_add]; congr 1
    rw [rowVal_succ, h3]
    have : 2 ^ (64 * j) * ((A.word a j).toNat + 1) ≤ 2 ^ (64 * j) * 2 ^ 64 := Nat.mul_le_mul_left _ h2
    rw [Nat.mul_add] at this
    omega

theorem rowVal_bit (A : Mzd) (a : Nat) : ∀ w i, i < 64 * w → (rowVal A a w).testBit i = A.bit a i
  | 0, i, h => by omega
  | w + 1, i, h => by
    rw [rowVal_succ, Nat.testBit_two_pow_mul_add _ (rowVal_lt A a w)]
    by_cases hi : i < 64 * w
    · rw [if_pos hi]; exact rowVal_bit A a w i hi
    · rw [if_neg hi]
      unfold Mzd.bit
      rw [show i / 64 = w by omega, show i % 64 = i - 64 * w by omega]
      rfl

theorem compare_words {A : Mzd} (w : A.Wf) {a b : Nat} (ha : a < A.nrows) (hb : b < A.nrows) :
    ∀ j, j ≤ A.width → compareWords A a b j = .ok (decide (rowVal A b j ≤ rowVal A a j))
  | 0, _ => by unfold compareWords; rfl
  | j + 1, hj => by
    unfold compareWords
    rw [get_eq (w.at ha (by omega)), C_ok_bind, get_eq (w.at hb (by omega)), C_ok_bind]
    have h1 := rowVal_lt A a j
    have h2 := rowVal_lt A b j
    have big : ∀ {x y : Nat}, x < y → 2 ^ (64 * j) * x + 2 ^ (64 * j) ≤ 2 ^ (64 * j) * y := by
      intro x y h
      have : 2 ^ (64 * j) * (x + 1) ≤ 2 ^ (64 * j) * y := Nat.mul_le_mul_left _ h
      rwa [Nat.mul_add, Nat.mul_one] at this
    by_cases hx : A.word a j < A.word b j
    · rw [if_pos hx]
      have := big (BitVec.lt_def.1 hx)
      rw [decide_eq_false (by rw [rowVal_succ, rowVal_succ]; omega)]
      rfl
    · rw [if_neg hx]
      by_cases hy : A.word a j > A.word b j
      · rw [if_pos hy]
        have := big (BitVec.lt_def.1 hy)
        rw [decide_eq_true (by rw [rowVal_succ, rowVal_succ]; omega)]
        rfl
      · rw [if_neg hy, compare_words w ha hb j (by omega)]
        have e : (A.word a j).toNat = (A.word b j).toNat := by
          have h3 : ¬ (A.word a j).toNat < (A.word b j).toNat := fun h => hx (BitVec.lt_def.2 h)
          have h4 : ¬ (A.word b j).toNat < (A.word a j).toNat := fun h => hy (BitVec.lt_def.2 h)
          omega
        congr 1
        rw [decide_eq_decide]
        rw [rowVal_succ, rowVal_succ, e]
        omega

/-- The number of a whole row -/
def key (A : Mzd) (a : Nat) : Nat := rowVal A a A.width

theorem compare_rows {A : Mzd} (w : A.Wf) {a b : Nat} (ha : a < A.nrows) (hb : b < A.nrows) :
    mzd_compare_rows_revlex A a b = .ok (decide (key A b ≤ key A a)) := compare_words w ha hb _ (le_refl _)

/-- If the larger row has no bit in the last column that may be occupied, neither has the smaller one. -/
theorem no_bit {A : Mzd} {a b n : Nat} (hk : key A b ≤ key A a) (hn : n < 64 * A.width) (h : ∀ j, n ≤ j → j < 64 * A.width → A.bit a j = false) :
    A.bit b n = false := by
  have h1 : key A a < 2 ^ n := by
    refine Nat.lt_pow_two_of_testBit _ fun i hi => ?_
    by_cases hw : i < 64 * A.width
    · unfold key; rw [rowVal_bit A a _ i hw]; exact h i hi hw
    · exact Nat.testBit_lt_two_pow (lt_of_lt_of_le (rowVal_lt A a A.width) (Nat.pow_le_pow_right (by omega) (by omega)))
  rw [← rowVal_bit A b _ n hn]
  exact Nat.testBit_lt_two_pow (lt_of_le_of_lt hk h1)

theorem key_congr {A B : Mzd} (sh : Sh A B) {a : Nat} (h : ∀ j, B.bit a j = A.bit a j) : key B a = key A a := by
  unfold key
  rw [sh.width]
  refine Nat.eq_of_testBit_eq fun i => ?_
  by_cases hw : i < 64 * A.width
  · rw [rowVal_bit _ _ _ _ hw, rowVal_bit _ _ _ _ hw, h]
  · have : ∀ M : Mzd, (rowVal M a A.width).testBit i = false := fun M =>
      Nat.testBit_lt_two_pow (lt_of_lt_of_le (rowVal_lt M a A.width) (Nat.pow_le_pow_right (by omega) (by omega)))
    rw [this, this]

/-! ## Sifting -/

/-- The parent of each of the first `cnt` entries is not smaller. -/
def HeapOrd (k f : Nat → Nat) (cnt : Nat) : Prop := ∀ i, 0 < i → i < cnt → k (f i) ≤ k (f ((i - 1) / 2))

/-- `g` has the same first `cnt` values as `f`, in another order. -/
def Reord (cnt : Nat) (f g : Nat → Nat) : Prop := ∃ σ : Equiv.Perm Nat, (∀ i, cnt ≤ i → σ i = i) ∧ ∀ i, i < cnt → g i = f (σ i)

theorem Reord.refl (cnt : Nat) (f : Nat → Nat) : Reord cnt f f := ⟨1, fun _ _ => rfl, fun _ _ => rfl⟩

theorem Reord.step {cnt : Nat} {f f' g : Nat → Nat} {a b : Nat} (h : Reord cnt f' g) (ha : a < cnt) (hb : b < cnt)
    (hf : ∀ i, f' i = f (Equiv.swap a b i)) : Reord cnt f g := by
  obtain ⟨σ, h1, h2⟩ := h
  refine ⟨σ.trans (Equiv.swap a b), fun i hi => ?_, fun i hi => ?_⟩
  · show Equiv.swap a b (σ i) = i
    rw [h1 i hi]
    exact Equiv.swap_apply_of_ne_of_ne (by omega) (by omega)
  · rw [h2 i hi, hf]
    rfl

theorem Reord.lt {cnt : Nat} {σ : Equiv.Perm Nat} (h : ∀ i, cnt ≤ i → σ i = i) {i : Nat} (hi : i < cnt) : σ i < cnt := by
  by_contra hc
  have := h (σ i) (by omega)
  have := σ.injective this
  omega

theorem swap_fill (d : Nat → Nat) (v a b : Nat) (hab : a ≠ b) (i : Nat) :
    (if i = b then v else if i = a then d b else d i) = (fun k => if k = a then v else d k) (Equiv.swap a b i) := by
  simp only [Equiv.swap_apply_def]
  split_ifs <;> simp_all

theorem siftUp_spec {A : Mzd} (w : A.Wf) {value cnt : Nat} (hv : value < A.nrows) :
    ∀ fuel index (d : Mem Nat), index < fuel → index < cnt → cnt ≤ d.size → (∀ i, i < cnt → i ≠ index → d.cell i < A.nrows) →
      (∀ i, 0 < i → i < cnt → i ≠ index → key A (d.cell i) ≤ key A (if (i - 1) / 2 = index then value else d.cell ((i - 1) / 2))) →
      (0 < index → ∀ i, 0 < i → i < cnt → (i - 1) / 2 = index → key A (d.cell i) ≤ key A (d.cell ((index - 1) / 2))) →
      Ok (siftUp A value fuel index d) fun D => D.size = d.size ∧ HeapOrd (key A) D.cell cnt ∧ Reord cnt (fun k => if k = index then value else d.cell k) D.cell
  | 0, _, _, h, _, _, _, _, _ => by omega
  | fuel + 1, index, d, hf, hi, hs, hm, h1, h2 => by
    unfold siftUp
    have done : (0 < index → key A value ≤ key A (d.cell ((index - 1) / 2))) → Ok (d.put index value) fun D => D.size = d.size ∧ HeapOrd (key A) D.cell cnt ∧
        Reord cnt (fun k => if k = index then value else d.cell k) D.cell := by
      intro h3
      rw [mem_put_eq _ (by omega), Ok.ok_iff]
      refine ⟨rfl, fun i h4 h5 => ?_, Reord.refl _ _⟩
      show key A (if i = index then value else d.cell i) ≤ key A (if (i - 1) / 2 = index then value else d.cell ((i - 1) / 2))
      by_cases hii : i = index
      · subst hii
        rw [if_pos rfl, if_neg (by omega)]
        exact h3 h4
      · rw [if_neg hii]
        exact h1 i h4 h5 hii
    by_cases h0 : index = 0
    · rw [if_pos h0]
      exact done (by omega)
    · rw [if_neg h0]
      have hp : (index - 1) / 2 < index := by omega
      generalize hpar : (index - 1) / 2 = par at *
      simp only []
      rw [Mem.get_eq (by omega), C_ok_bind, compare_rows w (hm par (by omega) (by omega)) hv, C_ok_bind]
      by_cases hc : key A value ≤ key A (d.cell par)
      · rw [decide_eq_true hc]
        exact done fun _ => hc
      · rw [decide_eq_false hc]
        simp only [Bool.false_eq_true, if_false]
        rw [mem_put_eq _ (by omega), C_ok_bind]
        refine (siftUp_spec w hv fuel par ⟨d.size, fun k => if k = index then d.cell par else d.cell k⟩ (by omega) (by omega) hs ?_ ?_ ?_).mono ?_
        · intro i h3 h4
          show (if i = index then d.cell par else d.cell i) < _
          split_ifs with h
          · exact hm par (by omega) (by omega)
          · exact hm i h3 h
        · intro i h3 h4 h5
          show key A (if i = index then d.cell par else d.cell i) ≤
            key A (if (i - 1) / 2 = par then value else if (i - 1) / 2 = index then d.cell par else d.cell ((i - 1) / 2))
          by_cases hii : i = index
          · rw [if_pos hii, hii, if_pos hpar]; omega
          · rw [if_neg hii]
            have h6 := h1 i h3 h4 hii
            by_cases hq : (i - 1) / 2 = par
            · rw [if_pos hq]
              rw [hq, if_neg (by omega)] at h6
              omega
            · rw [if_neg hq]
              by_cases hq' : (i - 1) / 2 = index
              · rw [if_pos hq']; exact h2 (by omega) i h3 h4 hq'
              · rw [if_neg hq'] at h6 ⊢; exact h6
        · intro h3 i h4 h5 h6
          show key A (if i = index then d.cell par else d.cell i) ≤ key A (if (par - 1) / 2 = index then d.cell par else d.cell ((par - 1) / 2))
          rw [if_neg (show ¬ (par - 1) / 2 = index by omega)]
          have h7 := h1 par h3 (by omega) (by omega)
          rw [if_neg (by omega)] at h7
          by_cases hii : i = index
          · rw [if_pos hii]; exact h7
          · rw [if_neg hii]
            have h8 := h1 i h4 h5 hii
            rw [h6, if_neg (by omega)] at h8
            omega
        · intro D ⟨h3, h4, h5⟩
          exact ⟨h3, h4, h5.step (a := index) (b := par) hi (by omega) (swap_fill d.cell value index par (by omega))⟩

theorem siftDown_spec {A : Mzd} (w : A.Wf) {temp cnt : Nat} (hv : temp < A.nrows) :
    ∀ fuel index (d : Mem Nat), cnt ≤ index + fuel → 0 < fuel → index < d.size → cnt ≤ d.size → (∀ i, i < cnt → i ≠ index → d.cell i < A.nrows) →
      (∀ i, 0 < i → i < cnt → (i - 1) / 2 ≠ index → key A (if i = index then temp else d.cell i) ≤ key A (d.cell ((i - 1) / 2))) →
      (0 < index → ∀ i, 0 < i → i < cnt → (i - 1) / 2 = index → key A (d.cell i) ≤ key A (d.cell ((index - 1) / 2))) →
      Ok (siftDown A cnt temp fuel index d) fun D => D.size = d.size ∧ HeapOrd (key A) D.cell cnt ∧ Reord cnt (fun k => if k = index then temp else d.cell k) D.cell
  | 0, _, _, _, h, _, _, _, _, _ => by omega
  | fuel + 1, index, d, hf, _, hi, hs, hm, h1, h2 => by
    unfold siftDown
    simp only []
    have done : (∀ i, 0 < i → i < cnt → (i - 1) / 2 = index → key A (d.cell i) ≤ key A temp) → Ok (d.put index temp) fun D => D.size = d.size ∧ HeapOrd (key A) D.cell cnt ∧
        Reord cnt (fun k => if k = index then temp else d.cell k) D.cell := by
      intro h3
      rw [mem_put_eq _ (by omega), Ok.ok_iff]
      refine ⟨rfl, fun i h4 h5 => ?_, Reord.refl _ _⟩
      show key A (if i = index then temp else d.cell i) ≤ key A (if (i - 1) / 2 = index then temp else d.cell ((i - 1) / 2))
      by_cases hii : (i - 1) / 2 = index
      · rw [if_pos hii, if_neg (by omega)]
        exact h3 i h4 h5 hii
      · rw [if_neg hii]
        exact h1 i h4 h5 hii
    by_cases h0 : cnt ≤ 2 * index + 1
    · rw [if_pos h0]
      exact done fun i _ _ _ => by omega
    · rw [if_neg h0]
      have sw : ∃ s, (s = 2 * index + 1 ∨ s = 2 * index + 2) ∧ s < cnt ∧ (∀ i, 0 < i → i < cnt → (i - 1) / 2 = index → key A (d.cell i) ≤ key A (d.cell s)) ∧
          (if 2 * index + 1 + 1 < cnt then do
            if ← mzd_compare_rows_revlex A (← d.get (2 * index + 1 + 1)) (← d.get (2 * index + 1)) then pure (2 * index + 1 + 1) else pure (2 * index + 1)
            else pure (2 * index + 1) : C Nat) = .ok s := by
        by_cases h3 : 2 * index + 1 + 1 < cnt
        · rw [if_pos h3, Mem.get_eq (by omega), C_ok_bind, Mem.get_eq (by omega), C_ok_bind, compare_rows w (hm _ (by omega) (by omega)) (hm _ (by omega) (by omega)), C_ok_bind]
          by_cases hc : key A (d.cell (2 * index + 1)) ≤ key A (d.cell (2 * index + 1 + 1))
          · rw [decide_eq_true hc]
            refine ⟨2 * index + 1 + 1, Or.inr rfl, h3, fun i h4 h5 h6 => ?_, rfl⟩
            obtain h | h : i = 2 * index + 1 ∨ i = 2 * index + 1 + 1 := by omega
            · rw [h]; exact hc
            · rw [h]
          · rw [decide_eq_false hc]
            refine ⟨2 * index + 1, Or.inl rfl, by omega, fun i h4 h5 h6 => ?_, rfl⟩
            obtain h | h : i = 2 * index + 1 ∨ i = 2 * index + 1 + 1 := by omega
            · rw [h]
            · rw [h]; omega
        · rw [if_neg h3]
          refine ⟨2 * index + 1, Or.inl rfl, by omega, fun i h4 h5 h6 => ?_, rfl⟩
          rw [show i = 2 * index + 1 by omega]
      obtain ⟨s, hs1, hs2, hs3, hs4⟩ := sw
      rw [hs4, C_ok_bind, Mem.get_eq (by omega), C_ok_bind, compare_rows w hv (hm s hs2 (by omega)), C_ok_bind]
      by_cases hc : key A (d.cell s) ≤ key A temp
      · rw [decide_eq_true hc]
        exact done fun i h4 h5 h6 => le_trans (hs3 i h4 h5 h6) hc
      · rw [decide_eq_false hc]
        simp only [Bool.false_eq_true, if_false]
        rw [mem_put_eq _ (by omega), C_ok_bind]
        have hpar : (s - 1) / 2 = index := by omega
        refine (siftDown_spec w hv fuel s ⟨d.size, fun k => if k = index then d.cell s else d.cell k⟩ (by omega) (by omega) (by show s < d.size; omega) hs ?_ ?_ ?_).mono ?_
        · intro i h3 h4
          show (if i = index then d.cell s else d.cell i) < _
          split_ifs with h
          · exact hm s hs2 (by omega)
          · exact hm i h3 h
        · intro i h3 h4 h5
          show key A (if i = s then temp else if i = index then d.cell s else d.cell i) ≤ key A (if (i - 1) / 2 = index then d.cell s else d.cell ((i - 1) / 2))
          by_cases hii : i = s
          · rw [if_pos hii, hii, if_pos hpar]; omega
          · rw [if_neg hii]
            by_cases hq : (i - 1) / 2 = index
            · rw [if_pos hq, if_neg (by omega)]
              exact hs3 i h3 h4 hq
            · rw [if_neg hq]
              by_cases hx : i = index
              · rw [if_pos hx, hx]
                exact h2 (by omega) s (by omega) hs2 hpar
              · rw [if_neg hx]
                have := h1 i h3 h4 hq
                rwa [if_neg hx] at this
        · intro h3 i h4 h5 h6
          show key A (if i = index then d.cell s else d.cell i) ≤ key A (if (s - 1) / 2 = index then d.cell s else d.cell ((s - 1) / 2))
          rw [if_neg (show ¬ i = index by omega), if_pos hpar]
          have := h1 i h4 h5 (by omega)
          rwa [if_neg (show ¬ i = index by omega), h6] at this
        · intro D ⟨h3, h4, h5⟩
          exact ⟨h3, h4, h5.step (a := index) (b := s) (by omega) hs2 (swap_fill d.cell temp index s (by omega))⟩

/-! ## Heaps of rows -/

/-- The heap holds the rows in `S`, each once, the largest one in front. -/
structure HeapOk (A : Mzd) (S : Nat → Prop) (h : RowHeap) : Prop where
  pow : ∃ k, h.data.size = 4 * 2 ^ k
  cnt : h.count ≤ h.data.size
  sub : ∀ i, i < h.count → S (h.data.cell i)
  inj : ∀ i j, i < h.count → j < h.count → h.data.cell i = h.data.cell j → i = j
  all : ∀ a, S a → ∃ i, i < h.count ∧ h.data.cell i = a
  ord : HeapOrd (key A) h.data.cell h.count

theorem HeapOk.init (A : Mzd) (junk : Nat → Nat) : HeapOk A (fun _ => False) (heap_init junk) :=
  ⟨⟨0, rfl⟩, Nat.zero_le _, fun i h => absurd h (Nat.not_lt_zero i), fun i _ h => absurd h (Nat.not_lt_zero i), fun _ h => h.elim, fun i _ h => absurd h (Nat.not_lt_zero i)⟩

/-- The front is the largest row. -/
theorem HeapOrd.front {k f : Nat → Nat} {cnt : Nat} (h : HeapOrd k f cnt) : ∀ i, i < cnt → k (f i) ≤ k (f 0) := by
  intro i
  induction i using Nat.strong_induction_on with
  | _ i ih =>
    intro hi
    by_cases h0 : i = 0
    · rw [h0]
    · exact le_trans (h i (by omega) hi) (ih ((i - 1) / 2) (by omega) (by omega))

theorem HeapOk.size {A : Mzd} {S : Nat → Prop} {h : RowHeap} (ho : HeapOk A S h) : 4 ≤ h.data.size := by
  obtain ⟨k, e⟩ := ho.pow
  have := Nat.one_le_two_pow (n := k)
  omega

theorem HeapOk.congr {A B : Mzd} {S : Nat → Prop} {h : RowHeap} (ho : HeapOk A S h) (hk : ∀ a, S a → key B a = key A a) : HeapOk B S h :=
  ⟨ho.pow, ho.cnt, ho.sub, ho.inj, ho.all, fun i h0 hi => by
    rw [hk _ (ho.sub i hi), hk _ (ho.sub ((i - 1) / 2) (by omega))]; exact ho.ord i h0 hi⟩

theorem realloc_cell {junk : Nat → Nat} {n : Nat} {d : Mem Nat} {i : Nat} (h : i < d.size) : (reallocRows junk n d).cell i = d.cell i := if_pos h

theorem push_ok {A : Mzd} (w : A.Wf) {S : Nat → Prop} {h : RowHeap} {junk : Nat → Nat} {v : Nat} (ho : HeapOk A S h) (hS : ∀ a, S a → a < A.nrows) (hv : v < A.nrows) (hn : ¬ S v) :
    Ok (heap_push junk h v A) (HeapOk A fun a => S a ∨ a = v) := by
  unfold heap_push
  have data : ∃ d : Mem Nat, (if h.count = h.data.size then reallocRows junk (2 * h.data.size) h.data else h.data) = d ∧ (∃ k, d.size = 4 * 2 ^ k) ∧ h.count < d.size ∧
      ∀ i, i < h.count → d.cell i = h.data.cell i := by
    have h1 := ho.size
    have h2 := ho.cnt
    by_cases hc : h.count = h.data.size
    · obtain ⟨k, e⟩ := ho.pow
      exact ⟨_, if_pos hc, ⟨k + 1, by show 2 * h.data.size = _; rw [e, pow_succ]; ring⟩, by show h.count < 2 * h.data.size; omega, fun i hi => realloc_cell (by omega)⟩
    · exact ⟨_, if_neg hc, ho.pow, by omega, fun _ _ => rfl⟩
  obtain ⟨d, e, d1, d2, d3⟩ := data
  simp only []
  rw [e, Ok.bind_iff]
  refine (siftUp_spec w (cnt := h.count + 1) hv (h.count + 1) h.count d (by omega) (by omega) (by omega) ?_ ?_ ?_).mono ?_
  · intro i h1 h2
    rw [d3 i (by omega)]
    exact hS _ (ho.sub i (by omega))
  · intro i h1 h2 h3
    rw [if_neg (by omega), d3 i (by omega), d3 _ (by omega)]
    exact ho.ord i h1 (by omega)
  · intro h1 i h2 h3 h4
    omega
  · intro D ⟨h1, h2, σ, h3, h4⟩
    rw [Ok.pure_iff]
    have cell : ∀ i, i < h.count + 1 → D.cell i = if σ i = h.count then v else h.data.cell (σ i) := by
      intro i hi
      have := Reord.lt h3 hi
      rw [h4 i hi]
      show (if σ i = h.count then v else d.cell (σ i)) = _
      split_ifs with hx
      · rfl
      · exact d3 _ (by omega)
    refine ⟨by obtain ⟨k, e⟩ := d1; exact ⟨k, h1.trans e⟩, by show h.count + 1 ≤ D.size; omega, ?_, ?_, ?_, h2⟩
    · intro i hi
      show S (D.cell i) ∨ D.cell i = v
      have := Reord.lt h3 hi
      rw [cell i hi]
      split_ifs with hx
      · exact Or.inr rfl
      · exact Or.inl (ho.sub _ (by omega))
    · intro i j hi hj hij
      have a1 := Reord.lt h3 hi
      have a2 := Reord.lt h3 hj
      have hij' : D.cell i = D.cell j := hij
      rw [cell i hi, cell j hj] at hij'
      apply σ.injective
      split_ifs at hij' with hx hy hy
      · omega
      · exact absurd (hij' ▸ ho.sub (σ j) (by omega)) hn
      · exact absurd (hij' ▸ ho.sub (σ i) (by omega)) hn
      · exact ho.inj _ _ (by omega) (by omega) hij'
    · intro a ha
      have inv : ∀ k, k < h.count + 1 → σ.symm k < h.count + 1 := by
        intro k hk
        by_contra hc
        have := h3 (σ.symm k) (by omega)
        rw [Equiv.apply_symm_apply] at this
        omega
      obtain ha | ha := ha
      · obtain ⟨k, hk, e⟩ := ho.all a ha
        refine ⟨σ.symm k, inv k (by omega), ?_⟩
        show D.cell _ = a
        rw [cell _ (inv k (by omega)), Equiv.apply_symm_apply, if_neg (by omega), e]
      · refine ⟨σ.symm h.count, inv _ (by omega), ?_⟩
        show D.cell _ = a
        rw [cell _ (inv _ (by omega)), Equiv.apply_symm_apply, if_pos rfl, ha]

theorem pop_ok {A : Mzd} (w : A.Wf) {S : Nat → Prop} {h : RowHeap} {junk : Nat → Nat} (ho : HeapOk A S h) (hS : ∀ a, S a → a < A.nrows) (h0 : 0 < h.count) :
    Ok (heap_pop junk h A) fun H => HeapOk A (fun a => S a ∧ a ≠ h.data.cell 0) H ∧ H.count = h.count - 1 := by
  unfold heap_pop
  have s1 := ho.size
  have s2 := ho.cnt
  rw [if_neg (by omega)]
  simp only []
  rw [Mem.get_eq (by omega), C_ok_bind]
  have data : ∃ d : Mem Nat, (if h.count - 1 ≤ h.data.size / 4 ∧ 4 < h.data.size then reallocRows junk (h.data.size / 2) h.data else h.data) = d ∧ (∃ k, d.size = 4 * 2 ^ k) ∧ h.count - 1 ≤ d.size ∧
      ∀ i, i < h.count → d.cell i = h.data.cell i := by
    by_cases hc : h.count - 1 ≤ h.data.size / 4 ∧ 4 < h.data.size
    · refine ⟨_, if_pos hc, ?_, by show h.count - 1 ≤ h.data.size / 2; omega, fun i hi => realloc_cell (by omega)⟩
      obtain ⟨k, e⟩ := ho.pow
      cases k with
      | zero => omega
      | succ k => exact ⟨k, by show h.data.size / 2 = _; rw [e, pow_succ]; omega⟩
    · exact ⟨_, if_neg hc, ho.pow, by omega, fun _ _ => rfl⟩
  obtain ⟨d, e, d1, d2, d3⟩ := data
  have d4 : 4 ≤ d.size := by
    obtain ⟨k, e⟩ := d1
    have := Nat.one_le_two_pow (n := k)
    omega
  rw [e, Ok.bind_iff]
  refine (siftDown_spec w (cnt := h.count - 1) (hS _ (ho.sub (h.count - 1) (by omega))) (h.count - 1 + 1) 0 d (by omega) (by omega) (by omega) (by omega) ?_ ?_ ?_).mono ?_
  · intro i h1 h2
    rw [d3 i (by omega)]
    exact hS _ (ho.sub i (by omega))
  · intro i h1 h2 h3
    rw [if_neg (by omega), d3 i (by omega), d3 _ (by omega)]
    exact ho.ord i h1 (by omega)
  · intro h1
    omega
  · intro D ⟨h1, h2, σ, h3, h4⟩
    rw [Ok.pure_iff]
    have cell : ∀ i, i < h.count - 1 → D.cell i = h.data.cell (if σ i = 0 then h.count - 1 else σ i) := by
      intro i hi
      have := Reord.lt h3 hi
      rw [h4 i hi]
      show (if σ i = 0 then h.data.cell (h.count - 1) else d.cell (σ i)) = _
      split_ifs with hx
      · rfl
      · exact d3 _ (by omega)
    refine ⟨⟨by obtain ⟨k, e⟩ := d1; exact ⟨k, h1.trans e⟩, by show h.count - 1 ≤ D.size; omega, ?_, ?_, ?_, h2⟩, rfl⟩
    · intro i hi
      have hi' : i < h.count - 1 := hi
      have := Reord.lt h3 hi'
      show S (D.cell i) ∧ D.cell i ≠ h.data.cell 0
      rw [cell i hi']
      have b : (if σ i = 0 then h.count - 1 else σ i) < h.count ∧ (if σ i = 0 then h.count - 1 else σ i) ≠ 0 := by
        split_ifs <;> omega
      exact ⟨ho.sub _ b.1, fun hc => b.2 (ho.inj _ _ b.1 h0 hc)⟩
    · intro i j hi hj hij
      have hi' : i < h.count - 1 := hi
      have hj' : j < h.count - 1 := hj
      have a1 := Reord.lt h3 hi'
      have a2 := Reord.lt h3 hj'
      have hij' : D.cell i = D.cell j := hij
      rw [cell i hi', cell j hj'] at hij'
      apply σ.injective
      have := ho.inj _ _ (by split_ifs <;> omega) (by split_ifs <;> omega) hij'
      split_ifs at this <;> omega
    · intro a ha
      have inv : ∀ k, k < h.count - 1 → σ.symm k < h.count - 1 := by
        intro k hk
        by_contra hc
        have := h3 (σ.symm k) (by omega)
        rw [Equiv.apply_symm_apply] at this
        omega
      obtain ⟨k, hk, e⟩ := ho.all a ha.1
      have hk0 : k ≠ 0 := fun h => ha.2 (by rw [← e, h])
      by_cases hl : k = h.count - 1
      · refine ⟨σ.symm 0, inv 0 (by omega), ?_⟩
        show D.cell _ = a
        rw [cell _ (inv 0 (by omega)), Equiv.apply_symm_apply, if_pos rfl, ← hl, e]
      · refine ⟨σ.symm k, inv k (by omega), ?_⟩
        show D.cell _ = a
        rw [cell _ (inv k (by omega)), Equiv.apply_symm_apply, if_neg hk0, e]

end WB.m4w
