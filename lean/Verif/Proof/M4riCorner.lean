import Verif.Proof.M4riTrans

/-!
# M4RI's transposition of the last corner (helper lemmas)
-/
namespace WB.m4w

open WB.cmp (Mem Mem2)

/-- A corner of `n` rows and `m` columns, at the end of both. -/
structure Cor (A : Mzd) (b w n m : Nat) : Prop where
  rows : A.nrows = 64 * b + n
  cols : A.ncols = 64 * w + m
  n0 : 0 < n
  n64 : n < 64
  m0 : 0 < m
  m64 : m < 64

variable {A D : Mzd} {b w n m : Nat}

theorem Cor.word (h : Cor A b w n m) : w < A.width := by obtain ⟨h1, h2, h3, h4, h5, h6⟩ := h; unfold Mzd.width; omega

theorem Cor.clean (h : Cor A b w n m) (cA : A.Clean) {i k : Nat} (hi : i < n) (hk : m ≤ k) : (A.word (64 * b + i) w).getLsbD k = false := by
  by_cases hk' : k < 64
  · exact clean_word cA (by rw [h.rows]; omega) h.word hk' (by rw [h.cols]; omega)
  · exact BitVec.getLsbD_of_ge _ _ (by omega)

theorem Cor.src (h : Cor A b w n m) : Src A b w n := by
  have h7 := h.word
  obtain ⟨h1, h2, h3, h4, h5, h6⟩ := h
  exact ⟨by omega, h3, h7⟩

/-- The columns are stored. -/
theorem Cor.store (h : Cor A b w n m) (hD : Dst A D) {F : Nat → Word} {P : C Mzd}
    (hP : Ok P fun N => Sh D N ∧ ∀ a x, N.word a x = if (64 * w ≤ a ∧ a < 64 * w + m) ∧ x = b then F (a - 64 * w) else D.word a x)
    (hF : ∀ k < m, ∀ p < 64, (F k).getLsbD p = (decide (p < n) && (A.word (64 * b + p) w).getLsbD k)) : Ok P (Blk A b w D) := by
  obtain ⟨h1, h2, h3, h4, h5, h6⟩ := h
  refine hP.mono fun N ⟨sh, hN⟩ => blk_of (m := m) (by omega) sh hN fun k hk p hp => ?_
  rw [hF k hk p hp]
  congr 1
  rw [decide_eq_decide]
  omega

theorem Cor.dst (h : Cor A b w n m) (hD : Dst A D) : 64 * w + m ≤ D.nrows ∧ b < D.width := by
  obtain ⟨h1, h2, h3, h4, h5, h6⟩ := h
  refine ⟨by rw [hD.nrows]; omega, ?_⟩
  unfold Mzd.width
  rw [hD.ncols]
  omega

/-! ## Up to 8 × 8 -/

theorem mask8 : ∀ q < 8, 0 < q → ∀ p < 64, (0x80402010080402#64 >>> (8 * (q - 1))).getLsbD p = decide (p / 8 + q = p % 8) := by decide +kernel

theorem byte_bit : ∀ p < 64, (0xff#64).getLsbD p = decide (p < 8) := by decide +kernel

theorem half_bit : ∀ p < 64, (0xffff#64).getLsbD p = decide (p < 16) := by decide +kernel

theorem upper_bit : ∀ p < 64, (0xFFFF0000#64).getLsbD p = decide (16 ≤ p ∧ p < 32) := by decide +kernel

theorem mask16 : ∀ q < 4, 0 < q → ∀ p < 64, (0xF0000F0000F0#64 >>> (16 * (q - 1))).getLsbD p = decide (p / 16 + q = p % 16 / 4) := by decide +kernel

/-- One round of the exchange of the two diagonals at distance `q` of an 8 × 8 matrix. -/
theorem round8 (w0 s : Word) {q : Nat} (hq0 : 0 < q) (hq : q < 8)
    (hs : ∀ p < 64, s.getLsbD p = if p / 8 < p % 8 + q ∧ p % 8 < p / 8 + q then w0.getLsbD (8 * (p % 8) + p / 8) else w0.getLsbD p) :
    let x := (s ^^^ (w0 >>> (7 * q))) &&& (0x80402010080402#64 >>> (8 * (q - 1)))
    ∀ p < 64, ((s ^^^ (x <<< (7 * q))) ^^^ x).getLsbD p =
      if p / 8 < p % 8 + (q + 1) ∧ p % 8 < p / 8 + (q + 1) then w0.getLsbD (8 * (p % 8) + p / 8) else w0.getLsbD p := by
  intro x p hp
  have hx : ∀ p < 64, x.getLsbD p = if p / 8 + q = p % 8 then (w0.getLsbD p ^^ w0.getLsbD (8 * (p % 8) + p / 8)) else false := by
    intro p hp
    show ((s ^^^ (w0 >>> (7 * q))) &&& (0x80402010080402#64 >>> (8 * (q - 1)))).getLsbD p = _
    rw [BitVec.getLsbD_and, BitVec.getLsbD_xor, BitVec.getLsbD_ushiftRight, mask8 q hq hq0 p hp]
    by_cases h : p / 8 + q = p % 8
    · rw [if_pos h, decide_eq_true h, Bool.and_true, hs p hp, if_neg (by omega), show 7 * q + p = 8 * (p % 8) + p / 8 by omega]
    · rw [if_neg h, decide_eq_false h, Bool.and_false]
  rw [BitVec.getLsbD_xor, BitVec.getLsbD_xor, BitVec.getLsbD_shiftLeft, decide_eq_true hp, Bool.true_and, hs p hp, hx p hp]
  by_cases h1 : p / 8 + q = p % 8
  · rw [if_pos h1, if_neg (by omega), if_pos (by omega)]
    by_cases h3 : p < 7 * q
    · rw [decide_eq_true h3]
      cases w0.getLsbD p <;> cases w0.getLsbD (8 * (p % 8) + p / 8) <;> rfl
    · rw [hx _ (by omega), if_neg (by omega), Bool.and_false]
      cases w0.getLsbD p <;> cases w0.getLsbD (8 * (p % 8) + p / 8) <;> rfl
  · rw [if_neg h1]
    by_cases h2 : p % 8 + q = p / 8
    · rw [if_neg (by omega), if_pos (by omega), decide_eq_false (show ¬ p < 7 * q by omega), hx _ (by omega), if_pos (by omega),
        show p - 7 * q = 8 * (p % 8) + p / 8 by omega, show 8 * ((8 * (p % 8) + p / 8) % 8) + (8 * (p % 8) + p / 8) / 8 = p by omega]
      cases w0.getLsbD p <;> cases w0.getLsbD (8 * (p % 8) + p / 8) <;> rfl
    · have h4 : (!decide (p < 7 * q) && x.getLsbD (p - 7 * q)) = false := by
        by_cases h3 : p < 7 * q
        · rw [decide_eq_true h3]; rfl
        · rw [hx _ (by omega), if_neg (by omega), Bool.and_false]
      rw [h4]
      by_cases h5 : p / 8 < p % 8 + q ∧ p % 8 < p / 8 + q
      · rw [if_pos h5, if_pos (by omega)]; simp
      · rw [if_neg h5, if_neg (by omega)]; simp

theorem le8_spec (wA : A.Wf) (cA : A.Clean) (hD : Dst A D) (h : Cor A b w n m) (h8 : max n m ≤ 8) :
    Ok (copy_transpose_le8xle8 D (64 * w) b A (64 * b) w n m (max n m)) (Blk A b w D) := by
  have hw := h.word
  have hc := fun i k (hi : i < n) (hk : m ≤ k) => h.clean cA hi hk
  have hdst := h.dst hD
  have hn0 := h.n0
  have hrows := h.rows
  unfold copy_transpose_le8xle8
  rw [get_eq (wA.at (by omega) hw), C_ok_bind]
  refine Ok.bind (P := fun w0 => ∀ p < 64, w0.getLsbD p = (decide (p / 8 < n) && (A.word (64 * b + p / 8) w).getLsbD (p % 8))) ?_ ?_
  · refine Ok.forUp (P := fun i (w0 : Word) => ∀ p < 64, w0.getLsbD p = (decide (p / 8 < i) && (A.word (64 * b + p / 8) w).getLsbD (p % 8))) (by omega) ?_ ?_ (fun s hs => hs)
    · intro p hp
      by_cases hp8 : p < 8
      · rw [show p / 8 = 0 by omega, show p % 8 = p by omega]; rfl
      · have := hc 0 p hn0 (by omega)
        rw [Nat.add_zero] at this
        show (A.word (64 * b) w).getLsbD p = _
        rw [this, decide_eq_false (by omega)]; rfl
    · intro i s hi1 hi2 hs
      rw [get_eq (wA.at (by omega) hw), C_ok_bind, C_pure_eq, Ok.ok_iff]
      intro p hp
      rw [BitVec.getLsbD_or, hs p hp, BitVec.getLsbD_shiftLeft, decide_eq_true hp, Bool.true_and]
      rcases Nat.lt_trichotomy (p / 8) i with h1 | h1 | h1
      · rw [decide_eq_true h1, decide_eq_true (show p / 8 < i + 1 by omega), decide_eq_true (show p < 8 * i by omega)]; simp
      · rw [decide_eq_false (show ¬ p / 8 < i by omega), decide_eq_true (show p / 8 < i + 1 by omega), decide_eq_false (show ¬ p < 8 * i by omega), h1,
          show p - 8 * i = p % 8 by omega]; simp
      · rw [decide_eq_false (show ¬ p / 8 < i by omega), decide_eq_false (show ¬ p / 8 < i + 1 by omega), hc i _ hi2 (by omega)]; simp
  intro w0 hw0
  refine Ok.bind (P := fun s => ∀ p < 64, s.1.getLsbD p = if p / 8 < p % 8 + max 2 (max n m) ∧ p % 8 < p / 8 + max 2 (max n m) then
      w0.getLsbD (8 * (p % 8) + p / 8) else w0.getLsbD p) ?_ ?_
  · refine Ok.forUp (P := fun q s => s.2.1 = w0 >>> (7 * q) ∧ s.2.2 = 0x80402010080402#64 >>> (8 * (q - 1)) ∧
      ∀ p < 64, s.1.getLsbD p = if p / 8 < p % 8 + q ∧ p % 8 < p / 8 + q then w0.getLsbD (8 * (p % 8) + p / 8) else w0.getLsbD p) (by omega)
      ⟨rfl, rfl, fun p hp => ?_⟩ ?_ (fun s hs => hs.2.2)
    · by_cases h1 : p / 8 < p % 8 + 1 ∧ p % 8 < p / 8 + 1
      · rw [if_pos h1, show 8 * (p % 8) + p / 8 = p by omega]
      · rw [if_neg h1]
    · intro q ⟨s1, s2, s3⟩ hq1 hq2 ⟨e1, e2, e3⟩
      simp only [] at e1 e2 e3
      rw [C_pure_eq, Ok.ok_iff]
      refine ⟨?_, ?_, ?_⟩
      · show s2 >>> 7 = _
        rw [e1, ← BitVec.shiftRight_add, Nat.mul_succ]
      · show s3 >>> 8 = _
        rw [e2, ← BitVec.shiftRight_add]
        congr 1
        omega
      · have := round8 w0 s1 hq1 (by omega) e3
        rw [← e1, ← e2] at this
        exact this
  intro s hs
  refine h.store hD (F := fun k => (s.1 >>> (8 * k)) &&& 0xff#64)
    (col_loop_down (fun k => (s.1 >>> (8 * k)) &&& 0xff#64) hD.wf hdst.1 hdst.2 fun k N _ => rfl) fun k hk p hp => ?_
  rw [BitVec.getLsbD_and, BitVec.getLsbD_ushiftRight, byte_bit p hp]
  by_cases hp8 : p < 8
  · rw [decide_eq_true hp8, Bool.and_true, hs _ (by omega)]
    have u1 : (8 * k + p) / 8 = k := by omega
    have u2 : (8 * k + p) % 8 = p := by omega
    rw [u1, u2]
    by_cases h1 : k < p + max 2 (max n m) ∧ p < k + max 2 (max n m)
    · rw [if_pos h1, hw0 _ (by omega), show (8 * p + k) / 8 = p by omega, show (8 * p + k) % 8 = k by omega]
    · rw [if_neg h1, hw0 _ (by omega), decide_eq_false (show ¬ p < n by omega), Bool.false_and]
      by_cases hkn : k < n
      · rw [u1, u2, hc k _ hkn (by omega), Bool.and_false]
      · rw [decide_eq_false (by omega), Bool.false_and]
  · rw [decide_eq_false hp8, Bool.and_false, decide_eq_false (by omega), Bool.false_and]

/-! ## Up to 16 × 16 -/

/-- One round of the exchange of the two diagonals at distance `q` of a 4 × 4 matrix of nibbles. -/
theorem round16 (t0 s : Word) {q : Nat} (hq0 : 0 < q) (hq : q < 4)
    (hs : ∀ p < 64, s.getLsbD p = if p / 16 < p % 16 / 4 + q ∧ p % 16 / 4 < p / 16 + q then t0.getLsbD (16 * (p % 16 / 4) + 4 * (p / 16) + p % 4) else t0.getLsbD p) :
    let x := (s ^^^ (s >>> (12 * q))) &&& (0xF0000F0000F0#64 >>> (16 * (q - 1)))
    ∀ p < 64, ((s ^^^ (x <<< (12 * q))) ^^^ x).getLsbD p =
      if p / 16 < p % 16 / 4 + (q + 1) ∧ p % 16 / 4 < p / 16 + (q + 1) then t0.getLsbD (16 * (p % 16 / 4) + 4 * (p / 16) + p % 4) else t0.getLsbD p := by
  intro x p hp
  have hx : ∀ p < 64, x.getLsbD p = if p / 16 + q = p % 16 / 4 then (t0.getLsbD p ^^ t0.getLsbD (16 * (p % 16 / 4) + 4 * (p / 16) + p % 4)) else false := by
    intro p hp
    show ((s ^^^ (s >>> (12 * q))) &&& (0xF0000F0000F0#64 >>> (16 * (q - 1)))).getLsbD p = _
    rw [BitVec.getLsbD_and, BitVec.getLsbD_xor, BitVec.getLsbD_ushiftRight, mask16 q hq hq0 p hp]
    by_cases h : p / 16 + q = p % 16 / 4
    · rw [if_pos h, decide_eq_true h, Bool.and_true, hs p hp, if_neg (by omega), hs _ (by omega), if_neg (by omega),
        show 12 * q + p = 16 * (p % 16 / 4) + 4 * (p / 16) + p % 4 by omega]
    · rw [if_neg h, decide_eq_false h, Bool.and_false]
  rw [BitVec.getLsbD_xor, BitVec.getLsbD_xor, BitVec.getLsbD_shiftLeft, decide_eq_true hp, Bool.true_and, hs p hp, hx p hp]
  by_cases h1 : p / 16 + q = p % 16 / 4
  · rw [if_pos h1, if_neg (by omega), if_pos (by omega)]
    by_cases h3 : p < 12 * q
    · rw [decide_eq_true h3]
      cases t0.getLsbD p <;> cases t0.getLsbD (16 * (p % 16 / 4) + 4 * (p / 16) + p % 4) <;> rfl
    · rw [hx _ (by omega), if_neg (by omega), Bool.and_false]
      cases t0.getLsbD p <;> cases t0.getLsbD (16 * (p % 16 / 4) + 4 * (p / 16) + p % 4) <;> rfl
  · rw [if_neg h1]
    by_cases h2 : p % 16 / 4 + q = p / 16
    · rw [if_neg (by omega), if_pos (by omega), decide_eq_false (show ¬ p < 12 * q by omega), hx _ (by omega), if_pos (by omega),
        show p - 12 * q = 16 * (p % 16 / 4) + 4 * (p / 16) + p % 4 by omega,
        show 16 * ((16 * (p % 16 / 4) + 4 * (p / 16) + p % 4) % 16 / 4) + 4 * ((16 * (p % 16 / 4) + 4 * (p / 16) + p % 4) / 16) +
          (16 * (p % 16 / 4) + 4 * (p / 16) + p % 4) % 4 = p by omega]
      cases t0.getLsbD p <;> cases t0.getLsbD (16 * (p % 16 / 4) + 4 * (p / 16) + p % 4) <;> rfl
    · have h4 : (!decide (p < 12 * q) && x.getLsbD (p - 12 * q)) = false := by
        by_cases h3 : p < 12 * q
        · rw [decide_eq_true h3]; rfl
        · rw [hx _ (by omega), if_neg (by omega), Bool.and_false]
      rw [h4]
      by_cases h5 : p / 16 < p % 16 / 4 + q ∧ p % 16 / 4 < p / 16 + q
      · rw [if_pos h5, if_pos (by omega)]; simp
      · rw [if_neg h5, if_neg (by omega)]; simp

theorem le16_spec (wA : A.Wf) (cA : A.Clean) (hD : Dst A D) (h : Cor A b w n m) (h8 : max n m ≤ 16) :
    Ok (copy_transpose_le16xle16 D (64 * w) b A (64 * b) w n m (max n m)) (Blk A b w D) := by
  have hw := h.word
  have hc := fun i k (hi : i < n) (hk : m ≤ k) => h.clean cA hi hk
  have hdst := h.dst hD
  have hn0 := h.n0
  have hrows := h.rows
  unfold copy_transpose_le16xle16
  refine Ok.bind (P := fun t => t.size = 4 ∧ ∀ r < 4, ∀ p < 64, tb t r p = (decide (4 * (p / 16) + r < n) && (A.word (64 * b + (4 * (p / 16) + r)) w).getLsbD (p % 16))) ?_ ?_
  · refine Ok.forUp (P := fun i (t : Mem Word) => t.size = 4 ∧ ∀ r < 4, ∀ p < 64, tb t r p =
      (decide (4 * (p / 16) + r < i) && (A.word (64 * b + (4 * (p / 16) + r)) w).getLsbD (p % 16))) (Nat.zero_le _) ⟨rfl, fun r _ p _ => ?_⟩ ?_ (fun s hs => hs)
    · rw [decide_eq_false (by omega), Bool.false_and]
      show (0#64).getLsbD p = false
      simp
    · intro i t _ hi ⟨e1, e2⟩
      simp only [Ok.bind_iff, Ok_get, Mem.Ok_put, Mem.Ok_get]
      refine ⟨by omega, wA.at (by omega) hw, by omega, e1, fun r hr p hp => ?_⟩
      show (if r = i % 4 then t.cell (i % 4) ||| A.word (64 * b + i) w <<< (16 * (i / 4)) else t.cell r).getLsbD p = _
      by_cases hri : r = i % 4
      · rw [if_pos hri, BitVec.getLsbD_or, ← hri]
        have := e2 r hr p hp
        unfold tb at this
        rw [this, BitVec.getLsbD_shiftLeft, decide_eq_true hp, Bool.true_and]
        rcases Nat.lt_trichotomy (p / 16) (i / 4) with h1 | h1 | h1
        · rw [decide_eq_true (show 4 * (p / 16) + r < i by omega), decide_eq_true (show 4 * (p / 16) + r < i + 1 by omega), decide_eq_true (show p < 16 * (i / 4) by omega)]; simp
        · rw [decide_eq_false (show ¬ 4 * (p / 16) + r < i by omega), decide_eq_true (show 4 * (p / 16) + r < i + 1 by omega),
            decide_eq_false (show ¬ p < 16 * (i / 4) by omega), show 4 * (p / 16) + r = i by omega, show p - 16 * (i / 4) = p % 16 by omega]; simp
        · rw [decide_eq_false (show ¬ 4 * (p / 16) + r < i by omega), decide_eq_false (show ¬ 4 * (p / 16) + r < i + 1 by omega), hc i _ hi (by omega)]; simp
      · rw [if_neg hri]
        have := e2 r hr p hp
        unfold tb at this
        rw [this]
        congr 1
        rw [decide_eq_decide]
        omega
  intro t0 ⟨z0, ht0⟩
  generalize hG : max 2 ((3 * max n m + 11) / 12) = G
  have hG4 : G ≤ 4 := by omega
  refine Ok.bind (P := fun t => t.size = 4 ∧ ∀ r < 4, ∀ p < 64, tb t r p =
      if p / 16 < p % 16 / 4 + G ∧ p % 16 / 4 < p / 16 + G then tb t0 r (16 * (p % 16 / 4) + 4 * (p / 16) + p % 4) else tb t0 r p) ?_ ?_
  · refine Ok.forUp (P := fun q (t : Mem Word) => t.size = 4 ∧ ∀ r < 4, ∀ p < 64, tb t r p =
      if p / 16 < p % 16 / 4 + q ∧ p % 16 / 4 < p / 16 + q then tb t0 r (16 * (p % 16 / 4) + 4 * (p / 16) + p % 4) else tb t0 r p) (by omega)
      ⟨z0, fun r _ p hp => ?_⟩ ?_ (fun s hs => hs)
    · by_cases h1 : p / 16 < p % 16 / 4 + 1 ∧ p % 16 / 4 < p / 16 + 1
      · rw [if_pos h1, show 16 * (p % 16 / 4) + 4 * (p / 16) + p % 4 = p by omega]
      · rw [if_neg h1]
    · intro q t hq1 hq2 ⟨e1, e2⟩
      refine Ok.forUp (P := fun i (t' : Mem Word) => t'.size = 4 ∧ (∀ r, i ≤ r → t'.cell r = t.cell r) ∧ ∀ r < i, ∀ p < 64, tb t' r p =
        if p / 16 < p % 16 / 4 + (q + 1) ∧ p % 16 / 4 < p / 16 + (q + 1) then tb t0 r (16 * (p % 16 / 4) + 4 * (p / 16) + p % 4) else tb t0 r p) (Nat.zero_le _)
        ⟨e1, fun _ _ => rfl, fun r hr => absurd hr (Nat.not_lt_zero _)⟩ ?_ (fun s hs => ⟨hs.1, hs.2.2⟩)
      intro i t' _ hi ⟨f1, f2, f3⟩
      simp only [Ok.bind_iff, Mem.Ok_put, Mem.Ok_get]
      refine ⟨by omega, by omega, f1, fun r hr => by rw [if_neg (by omega)]; exact f2 r (by omega), fun r hr p hp => ?_⟩
      by_cases hri : r = i
      · rw [hri]
        show (if i = i then _ else t'.cell i).getLsbD p = _
        rw [if_pos rfl, f2 i (Nat.le_refl _)]
        exact round16 (t0.cell i) (t.cell i) hq1 (by omega) (e2 i hi) p hp
      · show (if r = i then _ else t'.cell r).getLsbD p = _
        rw [if_neg hri]
        exact f3 r (by omega) p hp
  intro t1 ⟨z1, ht1⟩
  refine Ok.bind (transpose_Nxjx64_spec (n := 4) (by omega) fun s hs hs' => ?_) ?_
  · rw [z1]
    interval_cases s <;> simp_all
  intro ⟨L, t2⟩ ⟨g1, g2, g3, g4, g5⟩
  simp only [] at g1 g2 g3 g4 g5 ⊢
  have hL : L = 2 := by
    interval_cases L <;> simp_all
  subst hL
  simp only [Nat.reducePow] at g5
  refine h.store hD (F := fun k => ((t2.cell (k % 4)) >>> (16 * (k / 4))) &&& 0xffff#64)
    ((col_loop (fun k => ((t2.cell (k % 4)) >>> (16 * (k / 4))) &&& 0xffff#64) hD.wf hdst.1 hdst.2 (Nat.zero_le _)
      fun k N _ _ => by rw [Mem.get_eq (by omega), C_ok_bind]).mono fun N hN => ⟨hN.1, fun a x => by rw [hN.2, Nat.add_zero]⟩) fun k hk p hp => ?_
  rw [BitVec.getLsbD_and, BitVec.getLsbD_ushiftRight, half_bit p hp]
  by_cases hp8 : p < 16
  · have k1 : (t2.cell (k % 4)).getLsbD (16 * (k / 4) + p) = _ := g5 (k % 4) (by omega) (16 * (k / 4) + p) (by omega) (by omega)
    rw [decide_eq_true hp8, Bool.and_true, k1, ht1 _ (by omega) _ (by omega)]
    generalize hu : 4 * ((16 * (k / 4) + p) / 4) + k % 4 = u
    have hu1 : u / 16 = k / 4 := by omega
    have hu2 : u % 16 / 4 = p / 4 := by omega
    have hu3 : u % 4 = k % 4 := by omega
    have hu4 : (16 * (k / 4) + p) % 4 = p % 4 := by omega
    rw [hu1, hu2, hu3, hu4]
    by_cases h1 : k / 4 < p / 4 + G ∧ p / 4 < k / 4 + G
    · rw [if_pos h1, ht0 _ (by omega) _ (by omega), show 4 * ((16 * (p / 4) + 4 * (k / 4) + k % 4) / 16) + p % 4 = p by omega,
        show (16 * (p / 4) + 4 * (k / 4) + k % 4) % 16 = k by omega]
    · rw [if_neg h1, ht0 _ (by omega) _ (by omega), decide_eq_false (show ¬ p < n by omega), Bool.false_and]
      by_cases hkn : 4 * (u / 16) + p % 4 < n
      · rw [hc _ _ hkn (by omega), Bool.and_false]
      · rw [decide_eq_false hkn, Bool.false_and]
  · rw [decide_eq_false hp8, Bool.and_false, decide_eq_false (by omega), Bool.false_and]

/-! ## Up to 32 × 32 -/

theorem le32_spec (wA : A.Wf) (cA : A.Clean) (hD : Dst A D) (h : Cor A b w n m) (h8 : max n m ≤ 32) :
    Ok (copy_transpose_le32xle32 D (64 * w) b A (64 * b) w n m) (Blk A b w D) := by
  have hw := h.word
  have hc := fun i k (hi : i < n) (hk : m ≤ k) => h.clean cA hi hk
  have hdst := h.dst hD
  have hn0 := h.n0
  have hrows := h.rows
  unfold copy_transpose_le32xle32
  refine Ok.bind (P := fun t => t.size = 16 ∧ ∀ r < 16, ∀ p < 64, tb t r p =
    (decide (16 * (p / 32) + r < n) && (A.word (64 * b + (16 * (p / 32) + r)) w).getLsbD (p % 32))) ?_ ?_
  · by_cases h16 : 16 < n
    · rw [if_pos h16]
      refine Ok.bind (loadCol_spec wA (by omega) hw (show 16 ≤ 16 by omega)) ?_
      intro t1 ⟨e1, e2⟩
      refine Ok.forUp (P := fun i (t : Mem Word) => t.size = 16 ∧ ∀ r < 16, ∀ p < 64, tb t r p =
        (decide (16 * (p / 32) + r < 16 + i) && (A.word (64 * b + (16 * (p / 32) + r)) w).getLsbD (p % 32))) (Nat.zero_le _) ⟨e1, fun r hr p hp => ?_⟩ ?_ ?_
      · unfold tb
        rw [e2, if_pos hr]
        by_cases hp32 : p < 32
        · rw [decide_eq_true (by omega), show 16 * (p / 32) + r = r by omega, show p % 32 = p by omega]; rfl
        · rw [decide_eq_false (by omega), hc r p (by omega) (by omega)]; rfl
      · intro i t _ hi ⟨f1, f2⟩
        simp only [Ok.bind_iff, Ok_get, Mem.Ok_put, Mem.Ok_get]
        refine ⟨by omega, wA.at (by omega) hw, by omega, f1, fun r hr p hp => ?_⟩
        show (if r = i then t.cell i ||| A.word (64 * b + (16 + i)) w <<< 32 else t.cell r).getLsbD p = _
        have := f2 r hr p hp
        unfold tb at this
        by_cases hri : r = i
        · subst hri
          rw [if_pos rfl, BitVec.getLsbD_or, this, BitVec.getLsbD_shiftLeft, decide_eq_true hp, Bool.true_and]
          by_cases hp32 : p < 32
          · rw [decide_eq_true hp32, decide_eq_true (show 16 * (p / 32) + r < 16 + r by omega), decide_eq_true (show 16 * (p / 32) + r < 16 + (r + 1) by omega)]; simp
          · rw [decide_eq_false hp32, decide_eq_false (show ¬ 16 * (p / 32) + r < 16 + r by omega), decide_eq_true (show 16 * (p / 32) + r < 16 + (r + 1) by omega),
              show 16 * (p / 32) + r = 16 + r by omega, show p - 32 = p % 32 by omega]; simp
        · rw [if_neg hri, this]
          congr 1
          rw [decide_eq_decide]
          omega
      · intro t ⟨f1, f2⟩
        refine ⟨f1, fun r hr p hp => ?_⟩
        rw [f2 r hr p hp, show 16 + (n - 16) = n by omega]
    · rw [if_neg h16]
      refine Ok.bind (loadCol_spec wA (by omega) hw (show n ≤ 16 by omega)) ?_
      intro t1 ⟨e1, e2⟩
      refine (fillZero_spec (by omega) (by rw [e1])).mono ?_
      intro t2 ⟨e3, e4⟩
      refine ⟨by rw [e3, e1], fun r hr p hp => ?_⟩
      unfold tb
      rw [e4, e2]
      by_cases hrn : r < n
      · rw [if_neg (by omega), if_pos hrn]
        by_cases hp32 : p < 32
        · rw [decide_eq_true (by omega), show 16 * (p / 32) + r = r by omega, show p % 32 = p by omega]; rfl
        · rw [decide_eq_false (by omega), hc r p (by omega) (by omega)]; rfl
      · rw [if_pos (by omega), decide_eq_false (by omega)]
        simp
  intro t1 ⟨z1, ht1⟩
  refine Ok.bind (transpose_Nxjx64_spec (n := 16) (by omega) fun s hs hs' => ?_) ?_
  · rw [z1]
    interval_cases s <;> simp_all
  intro ⟨L, t2⟩ ⟨g1, g2, g3, g4, g5⟩
  simp only [] at g1 g2 g3 g4 g5 ⊢
  have hL : L = 4 := by
    interval_cases L <;> simp_all
  subst hL
  simp only [Nat.reducePow] at g5
  have hbit : ∀ r < 16, ∀ p < 64, (t2.cell r).getLsbD p = (decide (16 * (p / 32) + p % 16 < n) && (A.word (64 * b + (16 * (p / 32) + p % 16)) w).getLsbD (16 * (p % 32 / 16) + r)) := by
    intro r hr p hp
    have k1 : (t2.cell r).getLsbD p = _ := g5 r hr p hp (by omega)
    rw [k1, ht1 _ (by omega) _ (by omega), show (16 * (p / 16) + r) / 32 = p / 32 by omega, show (16 * (p / 16) + r) % 32 = 16 * (p % 32 / 16) + r by omega]
  let F : Nat → Word := fun j => if j < 16 then (t2.cell j &&& 0xFFFF#64) ||| ((t2.cell j >>> 16) &&& 0xFFFF0000#64) else
    ((t2.cell (j - 16) >>> 16) &&& 0xFFFF#64) ||| ((t2.cell (j - 16) >>> 32) &&& 0xFFFF0000#64)
  refine h.store hD (F := F) ?_ ?_
  · refine Ok.bind (col_loop (hi := min m 16) F hD.wf (show 64 * w + min m 16 ≤ D.nrows by omega) hdst.2 (Nat.zero_le _) fun k N _ hk => ?_) ?_
    · rw [Mem.get_eq (by omega), C_ok_bind]
      show _ = N.put _ _ (if k < 16 then _ else _)
      rw [if_pos (by omega)]
    intro D1 ⟨sh, hD1⟩
    by_cases hm : m ≤ 16
    · rw [show forUp 16 m D1 _ = .ok D1 by unfold forUp; rw [show m - 16 = 0 by omega]; rfl, Ok.ok_iff]
      exact ⟨sh, fun a x => by rw [hD1, Nat.add_zero, show min m 16 = m by omega]⟩
    · refine (col_loop F (sh.wf hD.wf) (by rw [sh.nrows]; exact hdst.1) (by rw [sh.width]; exact hdst.2) (by omega) fun k N hk1 hk2 => ?_).mono ?_
      · rw [Mem.get_eq (by omega), C_ok_bind]
        show _ = N.put _ _ (if k < 16 then _ else _)
        rw [if_neg (by omega)]
      · intro N ⟨sh', hN⟩
        refine ⟨sh.trans sh', fun a x => ?_⟩
        rw [hN, hD1]
        by_cases ha : (64 * w + 16 ≤ a ∧ a < 64 * w + m) ∧ x = b
        · rw [if_pos ha, if_pos (by omega)]
        · rw [if_neg ha]
          by_cases ha' : (64 * w ≤ a ∧ a < 64 * w + m) ∧ x = b
          · rw [if_pos ha', if_pos (by omega)]
          · rw [if_neg ha', if_neg (by omega)]
  · intro k hk p hp
    show (if k < 16 then _ else _ : Word).getLsbD p = _
    by_cases hk16 : k < 16
    · rw [if_pos hk16, BitVec.getLsbD_or, BitVec.getLsbD_and, BitVec.getLsbD_and, BitVec.getLsbD_ushiftRight, half_bit p hp, upper_bit p hp, hbit k hk16 p hp]
      by_cases hp1 : p < 16
      · rw [decide_eq_true hp1, decide_eq_false (show ¬ (16 ≤ p ∧ p < 32) by omega), show 16 * (p / 32) + p % 16 = p by omega, show 16 * (p % 32 / 16) + k = k by omega]; simp
      · rw [decide_eq_false hp1]
        by_cases hp2 : p < 32
        · rw [decide_eq_true (show 16 ≤ p ∧ p < 32 by omega), hbit k hk16 _ (by omega), show 16 * ((16 + p) / 32) + (16 + p) % 16 = p by omega,
            show 16 * ((16 + p) % 32 / 16) + k = k by omega]; simp
        · rw [decide_eq_false (show ¬ (16 ≤ p ∧ p < 32) by omega), decide_eq_false (show ¬ p < n by omega)]; simp
    · rw [if_neg hk16, BitVec.getLsbD_or, BitVec.getLsbD_and, BitVec.getLsbD_and, BitVec.getLsbD_ushiftRight, BitVec.getLsbD_ushiftRight, half_bit p hp, upper_bit p hp]
      by_cases hp1 : p < 16
      · rw [decide_eq_true hp1, decide_eq_false (show ¬ (16 ≤ p ∧ p < 32) by omega), hbit _ (by omega) _ (by omega), show 16 * ((16 + p) / 32) + (16 + p) % 16 = p by omega,
          show 16 * ((16 + p) % 32 / 16) + (k - 16) = k by omega]; simp
      · rw [decide_eq_false hp1]
        by_cases hp2 : p < 32
        · rw [decide_eq_true (show 16 ≤ p ∧ p < 32 by omega), hbit _ (by omega) (32 + p) (by omega), show 16 * ((32 + p) / 32) + (32 + p) % 16 = p by omega,
            show 16 * ((32 + p) % 32 / 16) + (k - 16) = k by omega]; simp
        · rw [decide_eq_false (show ¬ (16 ≤ p ∧ p < 32) by omega), decide_eq_false (show ¬ p < n by omega)]; simp

/-- The corner. -/
theorem corner_spec (wA : A.Wf) (cA : A.Clean) (hD : Dst A D) {junk : Nat → Word} (h : Cor A b w n m) :
    Ok (transposeCorner junk D (64 * w) b A (64 * b) w n m) (Blk A b w D) := by
  unfold transposeCorner
  simp only []
  by_cases h1 : max n m ≤ 8
  · rw [if_pos h1]; exact le8_spec wA cA hD h h1
  rw [if_neg h1]
  by_cases h2 : max n m ≤ 16
  · rw [if_pos h2]; exact le16_spec wA cA hD h h2
  rw [if_neg h2]
  by_cases h3 : max n m ≤ 32
  · rw [if_pos h3]; exact le32_spec wA cA hD h h3
  rw [if_neg h3]
  have := h.src
  obtain ⟨c1, c2, c3, c4, c5, c6⟩ := h
  exact le64_spec wA hD this (by omega) c5

end WB.m4w
