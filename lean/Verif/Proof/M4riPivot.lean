import Verif.Proof.M4riGauss

/-!
# `mzd_find_pivot` (helper lemmas)
-/
namespace WB.m4w

open WB.cmp (Mem Mem2)

/-- `l` is the lowest bit of `x`. -/
def Low (x : Word) (l : Nat) : Prop := x.getLsbD l = true ∧ ∀ m < l, x.getLsbD m = false

theorem Low.lt {x : Word} {l : Nat} (h : Low x l) : l < 64 := by
  by_contra hl
  rw [Low, BitVec.getLsbD_of_ge _ _ (by omega)] at h
  exact absurd h.1 (by decide)

theorem Low.ne {x : Word} {l : Nat} (h : Low x l) : x ≠ 0#64 := by
  rintro rfl
  rw [Low, BitVec.getLsbD_zero] at h
  exact absurd h.1 (by decide)

theorem exists_low {x : Word} (h : x ≠ 0#64) : ∃ l, Low x l := by
  have : ∃ l, x.getLsbD l = true := by
    by_contra hn
    exact h (bit_ext fun b _ => by rw [BitVec.getLsbD_zero]; simpa using fun hb => hn ⟨b, hb⟩)
  refine ⟨Nat.find this, Nat.find_spec this, fun m hm => ?_⟩
  simpa using Nat.find_min this hm

theorem low_mask {a : Word} {s : Nat} (h : Low a s) {b : Nat} (hb : b < 64) : ((a - 1#64) ^^^ a).getLsbD b = decide (b ≤ s) := by
  have hs := h.lt
  have ht : ∀ m, a.toNat.testBit m = a.getLsbD m := fun m => BitVec.testBit_toNat ..
  have hmod : a.toNat % 2 ^ s = 0 := Nat.eq_of_testBit_eq fun i => by
    rw [Nat.testBit_mod_two_pow, ht, Nat.zero_testBit]
    by_cases hi : i < s
    · rw [h.2 i hi, Bool.and_false]
    · rw [decide_eq_false hi]; rfl
  have hodd : a.toNat / 2 ^ s % 2 = 1 := by
    have := h.1
    rw [← ht, Nat.testBit_eq_decide_div_mod_eq] at this
    simpa using this
  obtain ⟨q, hq⟩ : ∃ q, a.toNat / 2 ^ s = 2 * q + 1 := ⟨a.toNat / 2 ^ s / 2, by omega⟩
  have hp : 0 < 2 ^ s := Nat.two_pow_pos s
  have ha : a.toNat = 2 ^ s * (2 * q + 1) + 0 := by
    have := Nat.div_add_mod a.toNat (2 ^ s)
    rw [hmod, hq] at this
    omega
  have ha1 : (a - 1#64).toNat = 2 ^ s * (2 * q) + (2 ^ s - 1) := by
    have hlt := a.isLt
    rw [BitVec.toNat_sub, show (1#64 : BitVec 64).toNat = 1 by decide]
    have : a.toNat = 2 ^ s * (2 * q) + 2 ^ s := by rw [ha]; ring
    rw [show 2 ^ 64 - 1 + a.toNat = (2 ^ s * (2 * q) + (2 ^ s - 1)) + 2 ^ 64 by omega, Nat.add_mod_right, Nat.mod_eq_of_lt (by omega)]
  rw [BitVec.getLsbD_xor, ← ht, ← BitVec.testBit_toNat, ha1, ha, Nat.testBit_two_pow_mul_add _ (by omega), Nat.testBit_two_pow_mul_add _ hp]
  split
  · rename_i h
    rw [Nat.testBit_two_pow_sub_one, Nat.zero_testBit, decide_eq_true h, decide_eq_true (show b ≤ s by omega)]; rfl
  · rename_i h
    rcases Nat.eq_zero_or_pos (b - s) with h0 | h0
    · rw [h0, decide_eq_true (show b ≤ s by omega), Nat.testBit_zero, Nat.testBit_zero]
      simp
    · rw [decide_eq_false (show ¬ b ≤ s by omega), show b - s = (b - s - 1) + 1 by omega, Nat.testBit_succ, Nat.testBit_succ,
        show (2 * q + 1) / 2 = q by omega, show 2 * q / 2 = q by omega]
      simp

theorem lesser_low {a b : Word} {s : Nat} (h : Low a s) : m4ri_lesser_LSB a b = true ↔ ∀ m ≤ s, b.getLsbD m = false := by
  unfold m4ri_lesser_LSB
  by_cases hb : b = 0#64
  · subst hb
    simp [h.ne]
  · rw [if_pos (by simpa using hb)]
    rw [Bool.not_eq_true', bne_eq_false_iff_eq]
    constructor
    · intro he m hm
      have := congrArg (BitVec.getLsbD · m) he
      rw [BitVec.getLsbD_and, BitVec.getLsbD_zero, low_mask h (by have := h.lt; omega), decide_eq_true hm, Bool.true_and] at this
      exact this
    · intro hz
      refine bit_ext fun m hm => ?_
      rw [BitVec.getLsbD_and, BitVec.getLsbD_zero, low_mask h hm]
      by_cases hms : m ≤ s
      · rw [hz m hms, Bool.and_false]
      · rw [decide_eq_false hms]; rfl

theorem lesser_zero (b : Word) : m4ri_lesser_LSB 0#64 b = false := by
  unfold m4ri_lesser_LSB
  by_cases hb : b = 0#64
  · subst hb; decide
  · rw [if_pos (by simpa using hb), show (0#64 - 1#64) ^^^ 0#64 = BitVec.allOnes 64 by decide, BitVec.allOnes_and]
    simp [hb]

/-- Among the words `W lo, …, W (i - 1)` none has a lower bit than the one in the state. -/
def Best (W : Nat → Word) (lo i : Nat) (s : Nat × Word) : Prop :=
  (s.2 = 0#64 ∧ ∀ a, lo ≤ a → a < i → W a = 0#64) ∨
  ∃ l, Low s.2 l ∧ lo ≤ s.1 ∧ s.1 < i ∧ s.2 = W s.1 ∧ ∀ a, lo ≤ a → a < i → ∀ m < l, (W a).getLsbD m = false

theorem Best.yes {W : Nat → Word} {lo i : Nat} {s : Nat × Word} (h : Best W lo i s) (hi : lo ≤ i) (hl : m4ri_lesser_LSB (W i) s.2 = true) :
    Best W lo (i + 1) (i, W i) := by
  have hne : W i ≠ 0#64 := fun h0 => by rw [h0, lesser_zero] at hl; exact absurd hl (by decide)
  obtain ⟨l, hlow⟩ := exists_low hne
  rw [lesser_low hlow] at hl
  refine .inr ⟨l, hlow, hi, Nat.lt_succ_self _, rfl, fun a ha1 ha2 m hm => ?_⟩
  by_cases ha : a = i
  · rw [ha]; exact hlow.2 m hm
  rcases h with ⟨_, h⟩ | ⟨l', hl', _, _, _, h⟩
  · rw [h a ha1 (by omega), BitVec.getLsbD_zero]
  · refine h a ha1 (by omega) m ?_
    by_contra hm'
    have := hl l' (by omega)
    rw [hl'.1] at this
    exact absurd this (by decide)

theorem Best.no {W : Nat → Word} {lo i : Nat} {s : Nat × Word} (h : Best W lo i s) (hl : m4ri_lesser_LSB (W i) s.2 = false) : Best W lo (i + 1) s := by
  by_cases hne : W i = 0#64
  · rcases h with ⟨h0, h⟩ | ⟨l', hl', h1, h2, h3, h⟩
    · refine .inl ⟨h0, fun a ha1 ha2 => ?_⟩
      by_cases ha : a = i
      · rw [ha]; exact hne
      · exact h a ha1 (by omega)
    · refine .inr ⟨l', hl', h1, by omega, h3, fun a ha1 ha2 m hm => ?_⟩
      by_cases ha : a = i
      · rw [ha, hne, BitVec.getLsbD_zero]
      · exact h a ha1 (by omega) m hm
  · obtain ⟨l, hlow⟩ := exists_low hne
    have hex : ∃ m, m ≤ l ∧ s.2.getLsbD m = true := by
      by_contra hn
      have : m4ri_lesser_LSB (W i) s.2 = true := (lesser_low hlow).2 fun m hm => by
        by_contra hb
        exact hn ⟨m, hm, by simpa using hb⟩
      rw [this] at hl
      exact absurd hl (by decide)
    obtain ⟨m0, hm0, hb0⟩ := hex
    rcases h with ⟨h0, _⟩ | ⟨l', hl', h1, h2, h3, h⟩
    · rw [h0, BitVec.getLsbD_zero] at hb0
      exact absurd hb0 (by decide)
    · refine .inr ⟨l', hl', h1, by omega, h3, fun a ha1 ha2 m hm => ?_⟩
      by_cases ha : a = i
      · rw [ha]
        refine hlow.2 m ?_
        by_contra hml
        have := hl'.2 m0 (by omega)
        rw [hb0] at this
        exact absurd this (by decide)
      · exact h a ha1 (by omega) m hm

theorem Best.start (W : Nat → Word) (lo i : Nat) : Best W lo lo (i, 0#64) := .inl ⟨rfl, fun a h1 h2 => by omega⟩

theorem candidate_spec {A : Mzd} (w : A.Wf) {lo wi spot i0 : Nat} {mask : Word} (hlo : lo ≤ A.nrows) (hw : wi < A.width)
    (hm : ∀ m < spot, mask.getLsbD m = false) : Ok (candidate A lo wi mask spot (i0, 0#64)) (Best (fun a => A.word a wi &&& mask) lo A.nrows) := by
  unfold candidate
  refine Ok.forBrk (Best (fun a => A.word a wi &&& mask) lo) (Best (fun a => A.word a wi &&& mask) lo A.nrows) hlo (Best.start ..) ?_ (fun s h => h) (fun s h => h)
  intro i s h1 h2 hs
  rw [get_eq (w.at h2 hw), C_ok_bind]
  dsimp only
  split
  · rename_i hl
    split
    · rename_i hg
      rw [Ok.pure_iff, Step.holds_stop]
      rw [getBit_eq] at hg
      refine .inr ⟨spot, ⟨hg, fun m hm' => ?_⟩, h1, h2, rfl, fun a _ _ m hm' => ?_⟩
      · rw [BitVec.getLsbD_and, hm m hm', Bool.and_false]
      · rw [BitVec.getLsbD_and, hm m hm', Bool.and_false]
    · rw [Ok.pure_iff, Step.holds_next]
      exact hs.yes h1 hl
  · rename_i hl
    rw [Ok.pure_iff, Step.holds_next]
    exact hs.no (by simpa using hl)

theorem firstBit_low {x : Word} {l n : Nat} (h : Low x l) (hn : l < n) : firstBit x n = .ok l := by
  unfold firstBit
  have : (List.range n).find? (fun l => getBit x l) = some l := by
    rw [List.find?_range_eq_some]
    exact ⟨by rw [getBit_eq]; exact h.1, List.mem_range.2 hn, fun j hj => by rw [getBit_eq, h.2 j hj]; rfl⟩
  rw [this]
  rfl

/-- What `mzd_find_pivot` finds. -/
def IsPivot (A : Mzd) (r c : Nat) : Option (Nat × Nat) → Prop
  | some (rb, cb) => r ≤ rb ∧ rb < A.nrows ∧ c ≤ cb ∧ cb < A.ncols ∧ A.bit rb cb = true ∧ ∀ a, r ≤ a → a < A.nrows → ∀ j, c ≤ j → j < cb → A.bit a j = false
  | none => ∀ a, r ≤ a → a < A.nrows → ∀ j, c ≤ j → j < A.ncols → A.bit a j = false

theorem find_pivot {A : Mzd} (w : A.Wf) {r c : Nat} (hr : r ≤ A.nrows) : Ok (mzd_find_pivot A r c) (IsPivot A r c) := by
  unfold mzd_find_pivot
  split
  · rename_i hshort
    split
    · rename_i hc
      rw [show min 64 (A.ncols - c) = A.ncols - c by omega]
      dsimp only
      -- the words that are compared
      obtain ⟨W, hW⟩ : ∃ W : Nat → Word, ∀ a < A.nrows, mzd_read_bits A a c (A.ncols - c) = .ok (W a) ∧
          ∀ b, (W a).getLsbD b = (decide (b < A.ncols - c) && A.bit a (c + b)) := by
        have : ∀ a, ∃ v, a < A.nrows → mzd_read_bits A a c (A.ncols - c) = .ok v ∧ ∀ b, v.getLsbD b = (decide (b < A.ncols - c) && A.bit a (c + b)) := by
          intro a
          by_cases ha : a < A.nrows
          · obtain ⟨v, hv⟩ := read_bits w ha (show 0 < A.ncols - c by omega) (by omega) (show (c + (A.ncols - c) - 1) / 64 < A.width by unfold Mzd.width; omega)
            exact ⟨v, fun _ => hv⟩
          · exact ⟨0#64, fun h => absurd h ha⟩
        choose W hW using this
        exact ⟨W, hW⟩
      refine Ok.bind (P := Best W r A.nrows) ?_ ?_
      · refine Ok.forUp (P := Best W r) hr (Best.start ..) ?_ (fun s h => h)
        intro i s h1 h2 hs
        rw [(hW i h2).1, C_ok_bind]
        split
        · rename_i hl
          exact (Ok.pure_iff _ _).2 (hs.yes h1 hl)
        · rename_i hl
          exact (Ok.pure_iff _ _).2 (hs.no (by simpa using hl))
      · intro s hs
        rcases hs with ⟨h0, h⟩ | ⟨l, hl, h1, h2, h3, h⟩
        · rw [if_neg (by simpa using h0), Ok.pure_iff]
          intro a ha1 ha2 j hj1 hj2
          have := (hW a ha2).2 (j - c)
          rw [h a ha1 ha2, BitVec.getLsbD_zero, decide_eq_true (by omega), Bool.true_and, show c + (j - c) = j by omega] at this
          exact this.symm
        · have hlb := hl.1
          rw [h3, (hW _ h2).2, Bool.and_eq_true, decide_eq_true_eq] at hlb
          rw [if_pos hl.ne, firstBit_low hl hlb.1, C_ok_bind, Ok.pure_iff]
          refine ⟨h1, h2, by omega, by omega, hlb.2, fun a ha1 ha2 j hj1 hj2 => ?_⟩
          have := h a ha1 ha2 (j - c) (by omega)
          rw [(hW a ha2).2, decide_eq_true (by omega), Bool.true_and, show c + (j - c) = j by omega] at this
          exact this
    · rename_i hc
      rw [Ok.pure_iff]
      intro a _ _ j _ _
      omega
  · rename_i hlong
    have hc : c < A.ncols := by omega
    have hwd : A.width = (A.ncols + 63) / 64 := rfl
    dsimp only
    refine Ok.bind (candidate_spec w hr (lt_width hc) (fun m hm => by rw [rightMask_bit _ _ (Nat.mod_lt _ (by decide))]; exact decide_eq_false (by omega))) ?_
    have hbit : ∀ a m, (A.word a (c / 64) &&& rightMask (64 - c % 64)).getLsbD m = (decide (c % 64 ≤ m ∧ m < 64) && A.bit a (64 * (c / 64) + m)) := by
      intro a m
      rw [BitVec.getLsbD_and, rightMask_bit _ _ (Nat.mod_lt _ (by decide)), Bool.and_comm]
      by_cases hm : m < 64
      · rw [← bit_def A (show (64 * (c / 64) + m) / 64 = c / 64 by omega), show (64 * (c / 64) + m) % 64 = m by omega]
      · rw [decide_eq_false (by omega)]; rfl
    intro s hs
    rcases hs with ⟨h0, h⟩ | ⟨l, hl, h1, h2, h3, h⟩
    swap
    · have hlb := hl.1
      rw [h3, hbit, Bool.and_eq_true, decide_eq_true_eq] at hlb
      have hlow : Low (s.2 >>> (c % 64)) (l - c % 64) := by
        refine ⟨?_, fun m hm => ?_⟩
        · rw [BitVec.getLsbD_ushiftRight, show c % 64 + (l - c % 64) = l by omega]; exact hl.1
        · rw [BitVec.getLsbD_ushiftRight]; exact hl.2 _ (by omega)
      rw [if_pos hl.ne, firstBit_low hlow (by omega), C_ok_bind, Ok.pure_iff]
      have hcol : c + (l - c % 64) = 64 * (c / 64) + l := by omega
      refine ⟨h1, h2, by omega, by omega, by rw [hcol]; exact hlb.2, fun a ha1 ha2 j hj1 hj2 => ?_⟩
      have := h a ha1 ha2 (j - 64 * (c / 64)) (by omega)
      rw [hbit, decide_eq_true (by omega), Bool.true_and, show 64 * (c / 64) + (j - 64 * (c / 64)) = j by omega] at this
      exact this
    rw [if_neg (by simpa using h0)]
    have hz0 : ∀ a, r ≤ a → a < A.nrows → ∀ j, c ≤ j → j < 64 * (c / 64 + 1) → A.bit a j = false := by
      intro a ha1 ha2 j hj1 hj2
      have := congrArg (BitVec.getLsbD · (j - 64 * (c / 64))) (h a ha1 ha2)
      rw [BitVec.getLsbD_zero, hbit, decide_eq_true (by omega), Bool.true_and, show 64 * (c / 64) + (j - 64 * (c / 64)) = j by omega] at this
      exact this
    have hword : ∀ a wi m, m < 64 → (A.word a wi).getLsbD m = A.bit a (64 * wi + m) := by
      intro a wi m hm
      rw [← bit_def A (show (64 * wi + m) / 64 = wi by omega), show (64 * wi + m) % 64 = m by omega]
    refine Ok.bind (P := fun m => (∃ s : Nat × Word, m = .next s ∧ s.2 = 0#64 ∧ ∀ a, r ≤ a → a < A.nrows → ∀ j, c ≤ j → j < 64 * (A.width - 1) → A.bit a j = false) ∨
        ∃ x, m = .stop x ∧ IsPivot A r c (some x)) ?_ ?_
    · by_cases hle : c / 64 + 1 ≤ A.width - 1
      · refine Ok.forRet (fun wi (s : Nat × Word) => s.2 = 0#64 ∧ ∀ a, r ≤ a → a < A.nrows → ∀ j, c ≤ j → j < 64 * wi → A.bit a j = false)
          (fun x => IsPivot A r c (some x)) hle ⟨h0, hz0⟩ ?_ (fun s h => .inl ⟨s, rfl, h⟩) (fun x h => .inr ⟨x, rfl, h⟩)
        intro wi s hw1 hw2 ⟨hs0, hz⟩
        obtain ⟨i0, d⟩ := s
        obtain rfl : d = 0#64 := hs0
        refine Ok.bind (candidate_spec w hr (by omega) (fun m hm => absurd hm (Nat.not_lt_zero m))) ?_
        have hff : ∀ a, A.word a wi &&& ffff = A.word a wi := fun a => by rw [show ffff = BitVec.allOnes 64 by decide, BitVec.and_allOnes]
        intro s hs
        rcases hs with ⟨h0, h⟩ | ⟨l, hl, h1, h2, h3, h⟩
        · rw [if_neg (by simpa using h0), Ok.pure_iff, Step.holds_next]
          refine ⟨h0, fun a ha1 ha2 j hj1 hj2 => ?_⟩
          by_cases hj : j < 64 * wi
          · exact hz a ha1 ha2 j hj1 hj
          · have := h a ha1 ha2
            dsimp only at this
            rw [hff] at this
            have e := hword a wi (j - 64 * wi) (by omega)
            rw [this, BitVec.getLsbD_zero, show 64 * wi + (j - 64 * wi) = j by omega] at e
            exact e.symm
        · have hl64 := hl.lt
          rw [if_pos hl.ne, firstBit_low hl hl64, C_ok_bind, Ok.pure_iff, Step.holds_stop]
          have hlb := hl.1
          rw [h3] at hlb
          dsimp only at hlb
          rw [hff, hword _ _ _ hl64, Nat.mul_comm] at hlb
          refine ⟨h1, h2, by omega, by omega, hlb, fun a ha1 ha2 j hj1 hj2 => ?_⟩
          by_cases hj : j < 64 * wi
          · exact hz a ha1 ha2 j hj1 hj
          · have := h a ha1 ha2 (j - 64 * wi) (by omega)
            dsimp only at this
            rw [hff, hword a wi _ (by omega), show 64 * wi + (j - 64 * wi) = j by omega] at this
            exact this
      · rw [WB.forRet, show A.width - 1 - (c / 64 + 1) = 0 by omega]
        show Ok (pure (Step.next s) : C (Step (Nat × Nat) (Nat × Word))) _
        rw [Ok.pure_iff]
        exact .inl ⟨s, rfl, h0, fun a ha1 ha2 j hj1 hj2 => hz0 a ha1 ha2 j hj1 (by omega)⟩
    · intro m hm
      rcases hm with ⟨s, rfl, hs0, hz⟩ | ⟨x, rfl, hx⟩
      swap
      · exact (Ok.pure_iff _ _).2 hx
      obtain ⟨i0, d⟩ := s
      obtain rfl : d = 0#64 := hs0
      dsimp only
      refine Ok.bind (candidate_spec w hr (by omega) (fun m hm => absurd hm (Nat.not_lt_zero m))) ?_
      have hend : (if A.ncols % 64 ≠ 0 then A.ncols % 64 else 64) = A.ncols - 64 * (A.width - 1) := by split <;> omega
      rw [hend]
      have hmask : ∀ a m, (A.word a (A.width - 1) &&& leftMask ((A.ncols - 64 * (A.width - 1)) % 64)).getLsbD m =
          (decide (m < A.ncols - 64 * (A.width - 1)) && A.bit a (64 * (A.width - 1) + m)) := by
        intro a m
        rw [BitVec.getLsbD_and, leftMask_bit _ _ (by omega), Bool.and_comm]
        by_cases hm : m < 64
        · rw [hword _ _ _ hm, show decide (m < 64 ∧ ((A.ncols - 64 * (A.width - 1)) % 64 = 0 ∨ m < (A.ncols - 64 * (A.width - 1)) % 64)) =
            decide (m < A.ncols - 64 * (A.width - 1)) from decide_eq_decide.2 (by omega)]
        · rw [decide_eq_false (by omega), decide_eq_false (by omega)]; rfl
      intro s hs
      rcases hs with ⟨h0, h⟩ | ⟨l, hl, h1, h2, h3, h⟩
      · rw [if_neg (by simpa using h0), Ok.pure_iff]
        intro a ha1 ha2 j hj1 hj2
        by_cases hj : j < 64 * (A.width - 1)
        · exact hz a ha1 ha2 j hj1 hj
        · have := hmask a (j - 64 * (A.width - 1))
          have hz' := h a ha1 ha2
          dsimp only at hz'
          rw [hz', BitVec.getLsbD_zero, decide_eq_true (by omega), Bool.true_and, show 64 * (A.width - 1) + (j - 64 * (A.width - 1)) = j by omega] at this
          exact this.symm
      · have hlb := hl.1
        rw [h3, hmask, Bool.and_eq_true, decide_eq_true_eq] at hlb
        rw [if_pos hl.ne, firstBit_low hl hlb.1, C_ok_bind, Ok.pure_iff]
        rw [Nat.mul_comm (A.width - 1)]
        refine ⟨h1, h2, by omega, by omega, hlb.2, fun a ha1 ha2 j hj1 hj2 => ?_⟩
        by_cases hj : j < 64 * (A.width - 1)
        · exact hz a ha1 ha2 j hj1 hj
        · have := h a ha1 ha2 (j - 64 * (A.width - 1)) (by omega)
          rw [hmask, decide_eq_true (by omega), Bool.true_and, show 64 * (A.width - 1) + (j - 64 * (A.width - 1)) = j by omega] at this
          exact this

end WB.m4w
