import Verif.Proof.M4riCorner
import Verif.Proof.M4riProd

/-!
# M4RI's transposition of a whole matrix (helper lemmas)
-/
namespace WB.m4w

open WB.cmp (Mem Mem2)

variable {A D D' : Mzd}

/-- The blocks of `P` have been transposed, everything else is zero. -/
def Tr (A : Mzd) (P : Nat → Nat → Prop) (D : Mzd) : Prop := Dst A D ∧ ∀ a y, D.bit a y = true ↔ (a < A.ncols ∧ P (y / 64) (a / 64)) ∧ y < A.nrows ∧ A.bit y a = true

theorem Tr.blk {P : Nat → Nat → Prop} {b w : Nat} (h : Tr A P D) (hb : Blk A b w D D') : Tr A (fun b' w' => P b' w' ∨ (b' = b ∧ w' = w)) D' := by
  refine ⟨h.1.sh hb.1, fun a y => ?_⟩
  rw [hb.2]
  by_cases hc : (a / 64 = w ∧ a < A.ncols) ∧ y / 64 = b
  · rw [if_pos hc, Bool.and_eq_true, decide_eq_true_iff]
    exact ⟨fun h' => ⟨⟨hc.1.2, Or.inr ⟨hc.2, hc.1.1⟩⟩, h'⟩, fun h' => h'.2⟩
  · rw [if_neg hc, h.2]
    constructor
    · exact fun h' => ⟨⟨h'.1.1, Or.inl h'.1.2⟩, h'.2⟩
    · rintro ⟨⟨h1, h2 | h2⟩, h3⟩
      · exact ⟨⟨h1, h2⟩, h3⟩
      · exact absurd ⟨⟨h2.2, h1⟩, h2.1⟩ hc

theorem Tr.congr {P Q : Nat → Nat → Prop} (h : Tr A P D) (hPQ : ∀ b w, 64 * b < A.nrows → 64 * w < A.ncols → (P b w ↔ Q b w)) : Tr A Q D := by
  refine ⟨h.1, fun a y => ?_⟩
  rw [h.2]
  constructor
  · rintro ⟨⟨h1, h2⟩, h3, h4⟩
    exact ⟨⟨h1, (hPQ _ _ (by omega) (by omega)).1 h2⟩, h3, h4⟩
  · rintro ⟨⟨h1, h2⟩, h3, h4⟩
    exact ⟨⟨h1, (hPQ _ _ (by omega) (by omega)).2 h2⟩, h3, h4⟩

theorem and64 (x y : Nat) : x &&& y &&& 64 ≠ 0 ↔ x / 64 % 2 = 1 ∧ y / 64 % 2 = 1 := by
  have t : ∀ z : Nat, z.testBit 6 = decide (z / 64 % 2 = 1) := fun z => by rw [Nat.testBit_eq_decide_div_mod_eq]
  have t64 : ∀ i, (64 : Nat).testBit i = decide (6 = i) := fun i => by rw [show (64 : Nat) = 2 ^ 6 from rfl, Nat.testBit_two_pow]
  rw [← decide_eq_true_iff (p := x / 64 % 2 = 1), ← decide_eq_true_iff (p := y / 64 % 2 = 1), ← t, ← t]
  constructor
  · intro h
    by_contra hn
    refine h (Nat.eq_of_testBit_eq fun i => ?_)
    rw [Nat.testBit_and, Nat.testBit_and, t64, Nat.zero_testBit]
    by_cases hi : 6 = i
    · subst hi
      rw [decide_eq_true rfl, Bool.and_true, Bool.eq_false_iff, Ne, Bool.and_eq_true]
      exact hn
    · rw [decide_eq_false hi, Bool.and_false]
  · intro ⟨h1, h2⟩ h
    have := congrArg (fun z : Nat => z.testBit 6) h
    simp only [Nat.testBit_and, h1, h2, t64] at this
    simp at this

/-- The state while the whole 64 × 64 matrices of row group `b` before word `j` are done. -/
structure Band (A : Mzd) (js b j : Nat) (s : TrState) : Prop where
  tr : Tr A (fun b' w' => (b' < b ∨ (b' = b ∧ w' < j)) ∧ ¬ (s.even = true ∧ s.delayed = (b', w'))) s.D
  par : s.even = decide ((b * (A.ncols / 64) + j + js) % 2 = 1)
  del : s.even = true → (s.delayed.1 < b ∨ (s.delayed.1 = b ∧ s.delayed.2 < j)) ∧ 64 * s.delayed.1 + 64 ≤ A.nrows ∧ 64 * s.delayed.2 + 64 ≤ A.ncols

theorem one_spec (wA : A.Wf) {js b j : Nat} {s : TrState} (h : Band A js b j s) (hb : 64 * b + 64 ≤ A.nrows) (hj : 64 * j + 64 ≤ A.ncols) :
    Ok (transposeOne A b j s) (Band A js b (j + 1)) := by
  obtain ⟨h1, h2, h3⟩ := h
  unfold transposeOne
  by_cases he : s.even = true
  · rw [if_neg (by simp [he])]
    obtain ⟨d1, d2, d3⟩ := h3 he
    unfold copy_transpose_64x64_2
    simp only [bind_assoc]
    refine Ok.bind (copy64_spec wA h1.1 d2 d3) ?_
    intro D1 hD1
    have t1 := h1.blk hD1
    refine Ok.bind (copy64_spec wA t1.1 hb hj) ?_
    intro D2 hD2
    have t2 := t1.blk hD2
    rw [C_pure_eq, Ok.ok_iff]
    refine ⟨t2.congr fun b' w' _ _ => ?_, ?_, fun h => absurd h (by simp)⟩
    · simp only [he, true_and, Bool.false_eq_true, false_and, not_false_eq_true, and_true]
      constructor
      · rintro ((h | h) | h)
        · omega
        · omega
        · omega
      · intro h
        by_cases hd : s.delayed = (b', w')
        · left; right; rw [hd]; exact ⟨rfl, rfl⟩
        · by_cases hbw : b' = b ∧ w' = j
          · right; exact hbw
          · left; left; exact ⟨by omega, hd⟩
    · rw [he] at h2
      have := (decide_eq_true_iff.1 h2.symm)
      exact (decide_eq_false (by omega)).symm
  · rw [if_pos he, C_pure_eq, Ok.ok_iff]
    have he' : s.even = false := by simpa using he
    refine ⟨h1.congr fun b' w' _ _ => ?_, ?_, fun _ => ⟨Or.inr ⟨rfl, Nat.lt_succ_self _⟩, hb, hj⟩⟩
    · simp only [he', Bool.false_eq_true, false_and, not_false_eq_true, and_true, true_and, Prod.mk.injEq]
      omega
    · rw [he'] at h2
      have := decide_eq_false_iff_not.1 h2.symm
      exact (decide_eq_true (by omega)).symm

theorem bands_spec (wA : A.Wf) (cA : A.Clean) {junk : Nat → Word} (h0 : Tr A (fun _ _ => False) D) (h64 : 64 ≤ A.nrows) :
    Ok (transposeBands junk D A) (Tr A fun b' _ => b' < A.nrows / 64) := by
  unfold transposeBands
  simp only []
  have hand := and64 A.ncols A.nrows
  generalize hjs : (if A.ncols &&& A.nrows &&& 64 ≠ 0 then 1 else 0 : Nat) = js
  have hjs' : js ≤ 1 ∧ (js = 1 ↔ A.ncols / 64 % 2 = 1 ∧ A.nrows / 64 % 2 = 1) := by
    rw [← hand, ← hjs]
    split
    case isTrue h => exact ⟨Nat.le_refl _, iff_of_true rfl h⟩
    case isFalse h => exact ⟨Nat.zero_le _, iff_of_false (by omega) h⟩
  clear hjs
  refine Ok.bind (P := Tr A fun b' w' => b' = 0 ∧ w' < js) ?_ ?_
  · by_cases hj : js = 1
    · rw [if_pos hj]
      have := copy64_spec wA h0.1 (b := 0) (w := 0) (by omega) (by omega)
      exact this.mono fun D1 hD1 => (h0.blk hD1).congr fun b' w' _ _ => by rw [hj]; simp only [false_or]; omega
    · rw [if_neg hj, C_pure_eq, Ok.ok_iff]
      exact h0.congr fun b' w' _ _ => ⟨fun h => h.elim, fun h => by omega⟩
  intro D1 hD1
  refine Ok.bind (P := fun s => Band A js (A.nrows / 64) 0 s) ?_ ?_
  · refine Ok.forUp (P := fun b s => Band A js b (if b = 0 then js else 0) s) (Nat.zero_le _) ⟨?_, ?_, fun h => absurd h (by simp)⟩ ?_ ?_
    · rw [if_pos rfl]
      exact hD1.congr fun b' w' _ _ => by simp
    · rw [if_pos rfl, Nat.zero_mul]
      exact (decide_eq_false (by omega)).symm
    · intro b s _ hb hs
      refine Ok.bind (P := fun s => Band A js b (A.ncols / 64) s) ?_ ?_
      · refine Ok.forUp (P := fun j s => Band A js b j s) ?_ hs (fun j s _ hj hs => one_spec wA hs (by omega) (by omega)) fun s hs => hs
        split <;> omega
      · intro s1 ⟨t1, t2, t3⟩
        have par : s1.even = decide (((b + 1) * (A.ncols / 64) + 0 + js) % 2 = 1) := by
          rw [t2, Nat.succ_mul, Nat.add_zero]
        have t3' : s1.even = true → (s1.delayed.1 < b + 1 ∨ (s1.delayed.1 = b + 1 ∧ s1.delayed.2 < 0)) ∧ 64 * s1.delayed.1 + 64 ≤ A.nrows ∧
            64 * s1.delayed.2 + 64 ≤ A.ncols := fun h => ⟨by have := (t3 h).1; omega, (t3 h).2⟩
        rw [if_neg (show ¬ b + 1 = 0 by omega)]
        split
        · have := xlt64_spec (junk := junk) (b := b) (n := A.ncols % 64) wA cA t1.1 (by omega) rfl rfl (by omega)
          refine Ok.bind this ?_
          intro D2 hD2
          rw [C_pure_eq, Ok.ok_iff]
          refine ⟨(t1.blk hD2).congr fun b' w' _ hw' => ?_, par, t3'⟩
          constructor
          · rintro (⟨h1, h2⟩ | h1)
            · exact ⟨by omega, h2⟩
            · refine ⟨by omega, fun h => ?_⟩
              have := (t3 h.1).2.2
              rw [h.2] at this
              simp only [] at this
              omega
          · rintro ⟨h1, h2⟩
            by_cases hbw : b' = b ∧ w' = A.ncols / 64
            · exact Or.inr hbw
            · exact Or.inl ⟨by omega, h2⟩
        · rw [C_pure_eq, Ok.ok_iff]
          refine ⟨t1.congr fun b' w' _ hw' => ?_, par, t3'⟩
          constructor
          · rintro ⟨h1, h2⟩
            exact ⟨by omega, h2⟩
          · rintro ⟨h1, h2⟩
            exact ⟨by omega, h2⟩
    · intro s hs
      rw [if_neg (by omega)] at hs
      exact hs
  · intro s ⟨t1, t2, t3⟩
    rw [C_pure_eq, Ok.ok_iff]
    have hev : s.even = false := by
      rw [t2]
      refine decide_eq_false ?_
      rw [Nat.add_zero, Nat.add_mod, Nat.mul_mod]
      have h1 := Nat.mod_two_eq_zero_or_one (A.nrows / 64)
      have h2 := Nat.mod_two_eq_zero_or_one (A.ncols / 64)
      have h3 : js = 0 ∨ js = 1 := by omega
      rcases h1 with h1 | h1 <;> rcases h2 with h2 | h2 <;> rcases h3 with h3 | h3 <;> simp_all
    exact t1.congr fun b' w' _ _ => by simp [hev]

theorem blockrows_big {w r : Nat} (hw : 0 < w) (hr : r * (w + 1) ≤ 2 ^ 26) : r ≤ blockrows w := by
  unfold blockrows
  have hs : rowstride w ≤ w + 1 := by unfold rowstride; split <;> omega
  have hs0 : 0 < rowstride w := by unfold rowstride; split <;> omega
  generalize rowstride w = s at *
  have h1 : r * s ≤ 2 ^ 26 := Nat.le_trans (Nat.mul_le_mul_left _ hs) hr
  have h2 : 2 * r ≤ 2 ^ 27 / s := (Nat.le_div_iff_mul_le hs0).2 (by rw [Nat.mul_assoc]; omega)
  rcases Nat.eq_zero_or_pos r with h0 | h0
  · rw [h0]; exact Nat.zero_le _
  · generalize 2 ^ 27 / s = x at *
    have h3 := Nat.lt_log2_self (n := x)
    rw [Nat.pow_succ] at h3
    omega

theorem fits_blocks {r c : Nat} (h : Fits r c) (hr : 0 < r) (hc : 0 < c) : ¬ bigBlocks r c ∧ ¬ bigBlocks c r := by
  obtain ⟨h1, h2, h3, h4⟩ := h
  have key : ∀ r c : Nat, 0 < c → c ≤ 2 ^ 25 → r * (c + 127) ≤ 2 ^ 32 → ¬ bigBlocks r c := by
    intro r c h0 h1 h2 hb
    have w0 : 0 < (c + 63) / 64 := by omega
    have w1 : 64 * ((c + 63) / 64 + 1) ≤ c + 127 := by omega
    unfold bigBlocks at hb
    have a1 : r ≤ blockrows ((c + 63) / 64) := by
      refine blockrows_big w0 ?_
      have : r * (64 * ((c + 63) / 64 + 1)) ≤ r * (c + 127) := Nat.mul_le_mul_left _ w1
      rw [Nat.mul_left_comm] at this
      omega
    have a2 : 64 ≤ blockrows ((c + 63) / 64) := blockrows_big w0 (by omega)
    omega
  exact ⟨key r c hc h2 h3, key c r hr h1 h4⟩

theorem transpose_tr (wA : A.Wf) (cA : A.Clean) {junk : Nat → Word} {mb : Mzd → Mzd → C Mzd} (hD : Tr A (fun _ _ => False) D) (h0 : 0 < A.nrows) (h1 : 0 < A.ncols)
    (hf : Fits A.nrows A.ncols) : Ok (_mzd_transpose junk mb D A) (Tr A fun _ _ => True) := by
  unfold _mzd_transpose
  have hbb := fits_blocks hf h0 h1
  rw [if_neg (not_or.2 hbb)]
  split
  case isFalse hmax =>
    have hc : Cor A 0 0 A.nrows A.ncols := ⟨by omega, by omega, h0, by omega, h1, by omega⟩
    have := corner_spec (junk := junk) wA cA hD.1 hc
    exact this.mono fun D1 hD1 => (hD.blk hD1).congr fun b w hb hw => by simp only [false_or, iff_true]; omega
  case isTrue hmax =>
    simp only []
    refine Ok.bind (P := Tr A fun b' _ => b' < A.nrows / 64) ?_ ?_
    · split
      case isTrue h64 => exact bands_spec wA cA hD h64
      case isFalse h64 =>
        rw [C_pure_eq, Ok.ok_iff]
        exact hD.congr fun b w _ _ => ⟨fun h => h.elim, fun h => by omega⟩
    intro D1 hD1
    split
    case isTrue hz =>
      rw [C_pure_eq, Ok.ok_iff]
      refine hD1.congr fun b w hb _ => ?_
      have : A.nrows % 64 = 0 := by
        rcases hz with ⟨_, h3, h4⟩ | hz
        · have h5 := (and64 A.ncols A.nrows).1 h3
          have h6 : A.nrows ≤ A.nrows ||| A.ncols := Nat.left_le_or
          rw [h4] at h6
          omega
        · exact hz
      simp only [iff_true]
      omega
    case isFalse hz =>
      have hnz : A.nrows % 64 ≠ 0 := fun h => hz (Or.inr h)
      refine Ok.bind (P := Tr A fun b' w' => b' < A.nrows / 64 ∨ (b' = A.nrows / 64 ∧ w' < A.ncols / 64)) ?_ ?_
      · refine Ok.forUp (P := fun k => Tr A fun b' w' => b' < A.nrows / 64 ∨ (b' = A.nrows / 64 ∧ w' < k)) (Nat.zero_le _) ?_ ?_ (fun D h => h)
        · exact hD1.congr fun b w _ _ => by omega
        · intro k D2 _ hk hD2
          have := lt64_spec (junk := junk) wA hD2.1 (b := A.nrows / 64) (w := k) (n := A.nrows % 64) ⟨by omega, by omega, by unfold Mzd.width; omega⟩ (by omega)
          exact this.mono fun D3 hD3 => (hD2.blk hD3).congr fun b w _ _ => by omega
      · intro D2 hD2
        split
        case isTrue hcz =>
          rw [C_pure_eq, Ok.ok_iff]
          exact hD2.congr fun b w _ _ => by simp only [iff_true]; omega
        case isFalse hcz =>
          have hc : Cor A (A.nrows / 64) (A.ncols / 64) (A.nrows % 64) (A.ncols % 64) := ⟨by omega, by omega, by omega, by omega, by omega, by omega⟩
          have := corner_spec (junk := junk) wA cA hD2.1 hc
          exact this.mono fun D3 hD3 => (hD2.blk hD3).congr fun b w _ _ => by simp only [iff_true]; omega

theorem transposes (junk : Nat → Word) (mb : Mzd → Mzd → C Mzd) : Transposes (mzd_transpose junk mb) := by
  intro M r c A hr hc hf hM cM
  show Ok (mzd_transpose junk mb M) _
  unfold mzd_transpose
  have h1 := hM.nrows
  have h2 := hM.ncols
  simp only []
  rw [if_neg (by omega)]
  have hD : Tr M (fun _ _ => False) (mzd_init M.ncols M.nrows) := ⟨⟨init_wf _ _, rfl, rfl⟩, fun a y => by rw [init_bit]; simp⟩
  refine (transpose_tr hM.wf cM hD (by omega) (by omega) (by rw [h1, h2]; exact hf)).mono ?_
  intro D ⟨d, hbit⟩
  refine ⟨⟨d.wf, by rw [d.nrows, h2], by rw [d.ncols, h1], fun i j => ?_⟩, fun i hi j hj _ => ?_⟩
  · rw [Matrix.transpose_apply, ← hM.bit j i]
    congr 1
    rw [Bool.eq_iff_iff, hbit]
    have := i.2
    have := j.2
    simp only [and_true]
    exact ⟨fun h => h.2.2, fun h => ⟨by omega, by omega, h⟩⟩
  · rw [Bool.eq_false_iff]
    intro h
    have := ((hbit i j).1 h).2.1
    rw [d.ncols] at hj
    omega

end WB.m4w
