import Verif.Proof.M4riSwap

/-!
# The pieces of M4RI's transposition (helper lemmas)
-/
namespace WB.m4w

open WB.cmp (Mem Mem2)

/-! ## Columns of words -/

/-- A loop that writes the word `x` of the rows `lo, …, hi - 1`. -/
theorem col_loop {M : Mzd} {x rd lo hi : Nat} {f : Nat → Mzd → C Mzd} (F : Nat → Word) (w : M.Wf) (hr : rd + hi ≤ M.nrows) (hx : x < M.width)
    (hlo : lo ≤ hi) (hf : ∀ k N, lo ≤ k → k < hi → f k N = N.put (rd + k) x (F k)) :
    Ok (forUp lo hi M f) fun N => Sh M N ∧ ∀ a b, N.word a b = if (rd + lo ≤ a ∧ a < rd + hi) ∧ b = x then F (a - rd) else M.word a b := by
  refine Ok.forUp (P := fun k N => Sh M N ∧ ∀ a b, N.word a b = if (rd + lo ≤ a ∧ a < rd + k) ∧ b = x then F (a - rd) else M.word a b)
    hlo ⟨Sh.refl _, fun a b => by rw [if_neg (by omega)]⟩ ?_ (fun N h => h)
  intro k N h1 h2 ⟨sh, hN⟩
  rw [hf k N h1 h2, put_eq _ ((sh.wf w).at (by rw [sh.nrows]; omega) (by rw [sh.width]; exact hx)), Ok.ok_iff]
  refine ⟨sh.trans (Sh.set _ _ _ _), fun a b => ?_⟩
  rw [word_set, hN]
  by_cases ha : a = rd + k ∧ b = x
  · rw [if_pos ha, if_pos (by omega), ha.1, Nat.add_sub_cancel_left]
  · rw [if_neg ha]
    by_cases hc : (rd + lo ≤ a ∧ a < rd + k) ∧ b = x
    · rw [if_pos hc, if_pos (by omega)]
    · rw [if_neg hc, if_neg (by omega)]

theorem col_loop_down {M : Mzd} {x rd hi : Nat} {f : Nat → Mzd → C Mzd} (F : Nat → Word) (w : M.Wf) (hr : rd + hi ≤ M.nrows) (hx : x < M.width)
    (hf : ∀ k N, k < hi → f k N = N.put (rd + k) x (F k)) :
    Ok (forDown hi 0 M f) fun N => Sh M N ∧ ∀ a b, N.word a b = if (rd ≤ a ∧ a < rd + hi) ∧ b = x then F (a - rd) else M.word a b := by
  refine Ok.forDown (P := fun k N => Sh M N ∧ ∀ a b, N.word a b = if (rd + k ≤ a ∧ a < rd + hi) ∧ b = x then F (a - rd) else M.word a b)
    (Nat.zero_le _) ⟨Sh.refl _, fun a b => by rw [if_neg (by omega)]⟩ ?_ (fun N h => h)
  intro k N _ h2 ⟨sh, hN⟩
  rw [hf k N h2, put_eq _ ((sh.wf w).at (by rw [sh.nrows]; omega) (by rw [sh.width]; exact hx)), Ok.ok_iff]
  refine ⟨sh.trans (Sh.set _ _ _ _), fun a b => ?_⟩
  rw [word_set, hN]
  by_cases ha : a = rd + k ∧ b = x
  · rw [if_pos ha, if_pos (by omega), ha.1, Nat.add_sub_cancel_left]
  · rw [if_neg ha]
    by_cases hc : (rd + (k + 1) ≤ a ∧ a < rd + hi) ∧ b = x
    · rw [if_pos hc, if_pos (by omega)]
    · rw [if_neg hc, if_neg (by omega)]

theorem loadCol_spec {t : Mem Word} {A : Mzd} (wA : A.Wf) {row word n : Nat} (hr : row + n ≤ A.nrows) (hw : word < A.width) (hn : n ≤ t.size) :
    Ok (loadCol t A row word n) fun t' => t'.size = t.size ∧ ∀ k, t'.cell k = if k < n then A.word (row + k) word else t.cell k := by
  unfold loadCol
  refine Ok.forUp (P := fun i (t' : Mem Word) => t'.size = t.size ∧ ∀ k, t'.cell k = if k < i then A.word (row + k) word else t.cell k)
    (Nat.zero_le _) ⟨rfl, fun k => by rw [if_neg (by omega)]⟩ ?_ (fun t' h => h)
  intro i t' _ hi ⟨e1, e2⟩
  simp only [Ok.bind_iff, Ok_get, Mem.Ok_put]
  refine ⟨wA.at (by omega) hw, by omega, e1, fun k => ?_⟩
  by_cases hk : k = i
  · rw [if_pos hk, if_pos (by omega), hk]
  · rw [if_neg hk, e2]
    by_cases hk' : k < i
    · rw [if_pos hk', if_pos (by omega)]
    · rw [if_neg hk', if_neg (by omega)]

theorem fillZero_spec {t : Mem Word} {n m : Nat} (hnm : n ≤ m) (hm : m ≤ t.size) :
    Ok (fillZero t n m) fun t' => t'.size = t.size ∧ ∀ k, t'.cell k = if n ≤ k ∧ k < m then 0#64 else t.cell k := by
  unfold fillZero
  refine Ok.forUp (P := fun i (t' : Mem Word) => t'.size = t.size ∧ ∀ k, t'.cell k = if n ≤ k ∧ k < i then 0#64 else t.cell k)
    hnm ⟨rfl, fun k => by rw [if_neg (by omega)]⟩ ?_ (fun t' h => h)
  intro i t' _ hi ⟨e1, e2⟩
  simp only [Mem.Ok_put]
  refine ⟨by omega, e1, fun k => ?_⟩
  by_cases hk : k = i
  · rw [if_pos hk, if_pos (by omega)]
  · rw [if_neg hk, e2]
    by_cases hk' : n ≤ k ∧ k < i
    · rw [if_pos hk', if_pos (by omega)]
    · rw [if_neg hk', if_neg (by omega)]

/-! ## One block -/

/-- The block of 64 rows with number `b` and the word `w` of `A` have been transposed from `D` to `D'`. -/
def Blk (A : Mzd) (b w : Nat) (D D' : Mzd) : Prop := Sh D D' ∧ ∀ a y, D'.bit a y =
  if (a / 64 = w ∧ a < A.ncols) ∧ y / 64 = b then decide (y < A.nrows) && A.bit y a else D.bit a y

/-- A destination for the transpose of `A`. -/
structure Dst (A D : Mzd) : Prop where
  wf : D.Wf
  nrows : D.nrows = A.ncols
  ncols : D.ncols = A.nrows

theorem Dst.sh {A D D' : Mzd} (h : Dst A D) (sh : Sh D D') : Dst A D' := ⟨sh.wf h.wf, by rw [sh.nrows, h.nrows], by rw [sh.ncols, h.ncols]⟩

theorem blk_of {A D D' : Mzd} {b w m : Nat} {F : Nat → Word} (hm : m = min 64 (A.ncols - 64 * w)) (sh : Sh D D')
    (hD : ∀ a x, D'.word a x = if (64 * w ≤ a ∧ a < 64 * w + m) ∧ x = b then F (a - 64 * w) else D.word a x)
    (hF : ∀ k < m, ∀ p < 64, (F k).getLsbD p = (decide (64 * b + p < A.nrows) && (A.word (64 * b + p) w).getLsbD k)) : Blk A b w D D' := by
  refine ⟨sh, fun a y => ?_⟩
  unfold Mzd.bit
  rw [hD]
  by_cases h : (64 * w ≤ a ∧ a < 64 * w + m) ∧ y / 64 = b
  · rw [if_pos h, if_pos (by omega), hF _ (by omega) _ (by omega), show 64 * b + y % 64 = y by omega, show a - 64 * w = a % 64 by omega, show a / 64 = w by omega]
  · rw [if_neg h, if_neg (by omega)]

variable {A D : Mzd}

/-- The source of a block: its rows and the word. -/
structure Src (A : Mzd) (b w n : Nat) : Prop where
  rows : n = min 64 (A.nrows - 64 * b)
  pos : 0 < n
  word : w < A.width

/-- Whole 64 rows through `transpose64`. -/
theorem via64 (wA : A.Wf) (hD : Dst A D) {junk : Nat → Word} {b w n m : Nat} (hs : Src A b w n) (hm : m = min 64 (A.ncols - 64 * w)) (hm0 : 0 < m) {P : C Mzd}
    (hP : P = do
      let t ← loadCol ⟨64, junk⟩ A (64 * b) w n
      let t ← fillZero t n 64
      let t ← transpose64 t
      storeCol D (64 * w) b m t) : Ok P (Blk A b w D) := by
  subst hP
  obtain ⟨hn, hn0, hw⟩ := hs
  refine Ok.bind (loadCol_spec wA (by omega) hw (show n ≤ 64 by omega)) ?_
  intro t1 ⟨e1, e2⟩
  refine Ok.bind (fillZero_spec (by omega) (by rw [e1])) ?_
  intro t2 ⟨e3, e4⟩
  refine Ok.bind (transpose64_spec (by rw [e3, e1])) ?_
  intro t3 ⟨e5, e6⟩
  unfold storeCol
  refine (col_loop (fun k => t3.cell k) hD.wf (show 64 * w + m ≤ D.nrows by rw [hD.nrows]; omega) (show b < D.width by unfold Mzd.width; rw [hD.ncols]; omega)
    (Nat.zero_le _) fun k N _ hk => by rw [Mem.get_eq (by omega), C_ok_bind]).mono ?_
  intro N ⟨sh, hN⟩
  refine blk_of hm sh (fun a x => by rw [hN, Nat.add_zero]) fun k hk p hp => ?_
  have : (t3.cell k).getLsbD p = (t2.cell p).getLsbD k := e6 k (by omega) p hp
  rw [this, e4, e2]
  by_cases hpn : p < n
  · rw [if_neg (by omega), if_pos hpn, decide_eq_true (by omega)]; rfl
  · rw [if_pos (by omega), decide_eq_false (by omega)]; simp

theorem fillZero_all (t : Mem Word) : fillZero t 64 64 = .ok t := by unfold fillZero forUp; rfl

theorem copy64_spec (wA : A.Wf) (hD : Dst A D) {b w : Nat} (hb : 64 * b + 64 ≤ A.nrows) (hw : 64 * w + 64 ≤ A.ncols) :
    Ok (copy_transpose_64x64 D (64 * w) b A (64 * b) w) (Blk A b w D) := by
  refine via64 (n := 64) (m := 64) (junk := fun _ => 0#64) wA hD ⟨by omega, by omega, by unfold Mzd.width; omega⟩ (by omega) (by omega) ?_
  unfold copy_transpose_64x64
  simp only [fillZero_all, C_ok_bind]

theorem le64_spec (wA : A.Wf) (hD : Dst A D) {junk : Nat → Word} {b w n m : Nat} (hs : Src A b w n) (hm : m = min 64 (A.ncols - 64 * w)) (hm0 : 0 < m) :
    Ok (copy_transpose_le64xle64 junk D (64 * w) b A (64 * b) w n m) (Blk A b w D) := via64 wA hD hs hm hm0 rfl

theorem log2_ceil_spec : ∀ n < 64, 0 < n → ∃ L, log2_ceil n = .ok L ∧ L ≤ 6 ∧ n ≤ 2 ^ L ∧ (L = 0 ∨ 2 ^ (L - 1) < n) := by
  intro n h1 h2
  interval_cases n <;> exact ⟨_, rfl, by decide, by decide, by decide⟩

theorem lt64_spec (wA : A.Wf) (hD : Dst A D) {junk : Nat → Word} {b w n : Nat} (hs : Src A b w n) (hw : 64 * w + 64 ≤ A.ncols) :
    Ok (copy_transpose_lt64x64 junk D (64 * w) b A (64 * b) w n) (Blk A b w D) := by
  unfold copy_transpose_lt64x64
  by_cases h32 : 32 < n
  · simp only [if_pos h32]
    exact via64 wA hD hs (m := 64) (by omega) (by omega) rfl
  simp only [if_neg h32]
  obtain ⟨hn, hn0, hw'⟩ := hs
  refine Ok.bind (loadCol_spec wA (by omega) hw' (show n ≤ 64 by omega)) ?_
  intro t1 ⟨e1, e2⟩
  refine Ok.bind (transpose_Nxjx64_spec (by omega) fun s hs _ => ?_) ?_
  · rw [e1]; interval_cases s <;> simp only [Nat.reducePow, Nat.reduceMul] <;> omega
  intro ⟨L, t2⟩ ⟨g1, g2, g3, g4, g5⟩
  simp only [] at g1 g2 g3 g4 g5 ⊢
  have hsz : t2.size = 64 := by rw [g4, e1]
  have hbits : ∀ k < 2 ^ L, ∀ g < 64 / 2 ^ L, ∀ p < 64, (((t2.cell k) >>> (g * 2 ^ L)) &&& leftMask n).getLsbD p =
      (decide (64 * b + p < A.nrows) && (A.word (64 * b + p) w).getLsbD (g * 2 ^ L + k)) := by
    intro k hk g hg p hp
    rw [BitVec.getLsbD_and, BitVec.getLsbD_ushiftRight, leftMask_bit _ _ (show n ≤ 64 by omega)]
    by_cases hpn : p < n
    · rw [decide_eq_true (show 64 * b + p < A.nrows by omega), decide_eq_true (by omega), Bool.and_true, Bool.true_and]
      have hJ : p < 2 ^ L := by omega
      have k1 : (g * 2 ^ L + p) % 2 ^ L = p := by rw [Nat.mul_comm, Nat.mul_add_mod, Nat.mod_eq_of_lt hJ]
      have k2 : (g * 2 ^ L + p) / 2 ^ L = g := by rw [Nat.mul_comm, Nat.mul_add_div (Nat.two_pow_pos L), Nat.div_eq_of_lt hJ, Nat.add_zero]
      have hlt : g * 2 ^ L + p < 64 := by
        have : 2 ^ L * (64 / 2 ^ L) ≤ 64 := Nat.mul_div_le 64 _
        have h3 : 2 ^ L * (g + 1) ≤ 2 ^ L * (64 / 2 ^ L) := Nat.mul_le_mul_left _ hg
        rw [Nat.mul_succ, Nat.mul_comm (2 ^ L) g] at h3
        omega
      have := g5 k hk (g * 2 ^ L + p) hlt (by rw [k1]; exact hpn)
      rw [k1, k2] at this
      unfold tb at this
      rw [this, e2, if_pos hpn, Nat.mul_comm g]
    · rw [decide_eq_false (show ¬ 64 * b + p < A.nrows by omega), decide_eq_false (by omega), Bool.and_false, Bool.false_and]
  have hDw : b < D.width := by unfold Mzd.width; rw [hD.ncols]; omega
  have hDr : 64 * w + 64 ≤ D.nrows := by rw [hD.nrows]; exact hw
  have hbits' : ∀ k < 64, ∀ p < 64, (((t2.cell (k % 2 ^ L)) >>> (k / 2 ^ L * 2 ^ L)) &&& leftMask n).getLsbD p =
      (decide (64 * b + p < A.nrows) && (A.word (64 * b + p) w).getLsbD k) := by
    intro k hk p hp
    have := hbits (k % 2 ^ L) (Nat.mod_lt _ (Nat.two_pow_pos L)) (k / 2 ^ L) (by
      clear g2 g3 g5 hbits
      interval_cases L <;> simp only [Nat.reducePow] <;> omega) p hp
    rw [Nat.div_add_mod'] at this
    exact this
  clear hbits g2 g3 g5
  refine Ok.mono (Q := fun N => Sh D N ∧ ∀ a x, N.word a x = if (64 * w ≤ a ∧ a < 64 * w + 64) ∧ x = b then
      ((t2.cell ((a - 64 * w) % 2 ^ L)) >>> ((a - 64 * w) / 2 ^ L * 2 ^ L)) &&& leftMask n else D.word a x) ?_ ?_
  · refine Ok.forUp (P := fun k N => Sh D N ∧ ∀ a x, N.word a x = if ((64 * w ≤ a ∧ a < 64 * w + 64) ∧ x = b) ∧ (a - 64 * w) % 2 ^ L < k then
        ((t2.cell ((a - 64 * w) % 2 ^ L)) >>> ((a - 64 * w) / 2 ^ L * 2 ^ L)) &&& leftMask n else D.word a x) (Nat.zero_le _)
      ⟨Sh.refl _, fun a x => by rw [if_neg (fun h => Nat.not_lt_zero _ h.2)]⟩ ?_ ?_
    · intro k N _ hk ⟨sh, hN⟩
      have hk64 : k < 64 := by
        clear hN
        interval_cases L <;> simp only [Nat.reducePow] at hk <;> omega
      rw [Mem.get_eq (by omega), C_ok_bind]
      refine Ok.forUp (P := fun g N => Sh D N ∧ ∀ a x, N.word a x = if ((64 * w ≤ a ∧ a < 64 * w + 64) ∧ x = b) ∧
          ((a - 64 * w) % 2 ^ L < k ∨ ((a - 64 * w) % 2 ^ L = k ∧ (a - 64 * w) / 2 ^ L < g)) then
          ((t2.cell ((a - 64 * w) % 2 ^ L)) >>> ((a - 64 * w) / 2 ^ L * 2 ^ L)) &&& leftMask n else D.word a x) (Nat.zero_le _)
        ⟨sh, fun a x => ?_⟩ ?_ ?_
      · rw [hN]
        by_cases hc : ((64 * w ≤ a ∧ a < 64 * w + 64) ∧ x = b) ∧ (a - 64 * w) % 2 ^ L < k
        · rw [if_pos hc, if_pos ⟨hc.1, Or.inl hc.2⟩]
        · rw [if_neg hc, if_neg (fun h => hc ⟨h.1, h.2.resolve_right fun h' => Nat.not_lt_zero _ h'.2⟩)]
      · intro g N' _ hg ⟨sh', hN'⟩
        have hlt : g * 2 ^ L + k < 64 := by
          clear hN hN' hbits'
          interval_cases L <;> simp only [Nat.reducePow] at hk hg ⊢ <;> omega
        have k1 : (g * 2 ^ L + k) % 2 ^ L = k := by rw [Nat.mul_comm, Nat.mul_add_mod, Nat.mod_eq_of_lt hk]
        have k2 : (g * 2 ^ L + k) / 2 ^ L = g := by rw [Nat.mul_comm, Nat.mul_add_div (Nat.two_pow_pos L), Nat.div_eq_of_lt hk, Nat.add_zero]
        rw [put_eq _ ((sh'.wf hD.wf).at (by rw [sh'.nrows]; omega) (by rw [sh'.width]; exact hDw)), Ok.ok_iff]
        refine ⟨sh'.trans (Sh.set _ _ _ _), fun a x => ?_⟩
        rw [word_set, hN']
        by_cases ha : a = 64 * w + (g * 2 ^ L + k) ∧ x = b
        · rw [if_pos ha, if_pos, ha.1, Nat.add_sub_cancel_left, k1, k2]
          rw [ha.1, Nat.add_sub_cancel_left, k1, k2]
          exact ⟨⟨by omega, ha.2⟩, Or.inr ⟨rfl, Nat.lt_succ_self _⟩⟩
        · rw [if_neg ha]
          have : (((64 * w ≤ a ∧ a < 64 * w + 64) ∧ x = b) ∧ ((a - 64 * w) % 2 ^ L < k ∨ ((a - 64 * w) % 2 ^ L = k ∧ (a - 64 * w) / 2 ^ L < g))) ↔
              (((64 * w ≤ a ∧ a < 64 * w + 64) ∧ x = b) ∧ ((a - 64 * w) % 2 ^ L < k ∨ ((a - 64 * w) % 2 ^ L = k ∧ (a - 64 * w) / 2 ^ L < g + 1))) := by
            constructor
            · rintro ⟨h1, h2⟩
              exact ⟨h1, h2.imp id fun h => ⟨h.1, Nat.lt_succ_of_lt h.2⟩⟩
            · rintro ⟨h1, h2⟩
              refine ⟨h1, h2.imp id fun h => ⟨h.1, ?_⟩⟩
              rcases Nat.lt_or_ge ((a - 64 * w) / 2 ^ L) g with h3 | h3
              · exact h3
              · exfalso
                have h4 : (a - 64 * w) / 2 ^ L = g := Nat.le_antisymm (Nat.le_of_lt_succ h.2) h3
                have h5 := Nat.div_add_mod (a - 64 * w) (2 ^ L)
                rw [h4, h.1, Nat.mul_comm] at h5
                exact ha ⟨by omega, h1.2⟩
          by_cases hc : ((64 * w ≤ a ∧ a < 64 * w + 64) ∧ x = b) ∧ ((a - 64 * w) % 2 ^ L < k ∨ ((a - 64 * w) % 2 ^ L = k ∧ (a - 64 * w) / 2 ^ L < g))
          · rw [if_pos hc, if_pos (this.1 hc)]
          · rw [if_neg hc, if_neg (fun h => hc (this.2 h))]
      · intro N' ⟨sh', hN'⟩
        refine ⟨sh', fun a x => ?_⟩
        rw [hN']
        have hg : ∀ y < 64, y / 2 ^ L < 64 / 2 ^ L := by
          intro y hy
          clear hN hN' hbits'
          interval_cases L <;> simp only [Nat.reducePow] <;> omega
        by_cases hc : ((64 * w ≤ a ∧ a < 64 * w + 64) ∧ x = b) ∧ (a - 64 * w) % 2 ^ L < k + 1
        · rw [if_pos hc, if_pos ⟨hc.1, (Nat.lt_succ_iff_lt_or_eq.1 hc.2).imp id fun h => ⟨h, hg _ (by omega)⟩⟩]
        · rw [if_neg hc, if_neg (fun h => hc ⟨h.1, h.2.elim Nat.lt_succ_of_lt fun h => Nat.lt_succ_of_le (Nat.le_of_eq h.1)⟩)]
    · intro N ⟨sh, hN⟩
      refine ⟨sh, fun a x => ?_⟩
      rw [hN]
      have := Nat.mod_lt (a - 64 * w) (Nat.two_pow_pos L)
      by_cases hc : (64 * w ≤ a ∧ a < 64 * w + 64) ∧ x = b
      · rw [if_pos hc, if_pos ⟨hc, this⟩]
      · rw [if_neg hc, if_neg (fun h => hc h.1)]
  · intro N ⟨sh, hN⟩
    exact blk_of (m := 64) (F := fun k => ((t2.cell (k % 2 ^ L)) >>> (k / 2 ^ L * 2 ^ L)) &&& leftMask n) (by omega) sh hN hbits'

/-- The unused bits of the rows of a block are zero. -/
theorem clean_word (cA : A.Clean) {a w k : Nat} (ha : a < A.nrows) (hw : w < A.width) (hk : k < 64) (hc : A.ncols ≤ 64 * w + k) :
    (A.word a w).getLsbD k = false := by
  have := cA a ha (64 * w + k) hc (by omega)
  unfold Mzd.bit at this
  rw [show (64 * w + k) / 64 = w by omega, show (64 * w + k) % 64 = k by omega] at this
  exact this

theorem xlt64_spec (wA : A.Wf) (cA : A.Clean) (hD : Dst A D) {junk : Nat → Word} {b w n : Nat} (hb : 64 * b + 64 ≤ A.nrows) (hw : w = A.ncols / 64)
    (hn : n = A.ncols % 64) (hn0 : n ≠ 0) : Ok (copy_transpose_64xlt64 junk D (64 * w) b A (64 * b) w n) (Blk A b w D) := by
  have hw' : w < A.width := by unfold Mzd.width; omega
  unfold copy_transpose_64xlt64
  obtain ⟨L, hL, h1, h2, h3⟩ := log2_ceil_spec n (by omega) (by omega)
  rw [hL, C_ok_bind]
  by_cases h6 : L = 6
  · rw [if_pos h6]
    refine via64 (n := 64) (m := n) (junk := junk) wA hD ⟨by omega, by omega, hw'⟩ (by omega) (by omega) ?_
    simp only [fillZero_all, C_ok_bind]
  rw [if_neg h6]
  simp only []
  have hsrc : ∀ a < 64, ∀ k < 64, 2 ^ L ≤ k → (A.word (64 * b + a) w).getLsbD k = false := fun a ha k hk hk' =>
    clean_word cA (by omega) hw' hk (by omega)
  have h3' : L ≤ 5 := by omega
  refine Ok.bind (P := fun t => t.size = 64 ∧ ∀ k < 2 ^ L, ∀ q < 64, tb t k q = (A.word (64 * b + (2 ^ L * (q / 2 ^ L) + k)) w).getLsbD (q % 2 ^ L)) ?_ ?_
  · refine Ok.forUp (P := fun i (t : Mem Word) => t.size = 64 ∧ ∀ k < i, ∀ q < 64, tb t k q = (A.word (64 * b + (2 ^ L * (q / 2 ^ L) + k)) w).getLsbD (q % 2 ^ L))
      (Nat.zero_le _) ⟨rfl, fun k hk => absurd hk (Nat.not_lt_zero _)⟩ ?_ (fun t h => h)
    intro i t _ hi ⟨e1, e2⟩
    have hi64 : i < 64 := by
      clear e2 hsrc h2 h3
      interval_cases L <;> simp only [Nat.reducePow] at hi <;> omega
    simp only [Ok.bind_iff, Ok_get, Mem.Ok_put]
    refine ⟨wA.at (by omega) hw', by omega, ?_⟩
    refine Ok.forUp (P := fun g (t' : Mem Word) => t'.size = 64 ∧ (∀ k, k ≠ i → t'.cell k = t.cell k) ∧
      ∀ q < 64, tb t' i q = if q / 2 ^ L < g then (A.word (64 * b + (2 ^ L * (q / 2 ^ L) + i)) w).getLsbD (q % 2 ^ L) else false) ?_ ⟨e1, fun k hk => if_neg hk, fun q hq => ?_⟩ ?_ ?_
    · clear e2 hsrc h2 h3 hi
      interval_cases L <;> simp
    · show (if i = i then A.word (64 * b + i) w else t.cell i).getLsbD q = _
      rw [if_pos rfl]
      have hJ : 0 < 2 ^ L := Nat.two_pow_pos L
      by_cases hqJ : q < 2 ^ L
      · rw [Nat.div_eq_of_lt hqJ, Nat.mod_eq_of_lt hqJ, if_pos (by omega), Nat.mul_zero, Nat.zero_add]
      · rw [if_neg, hsrc i hi64 q hq (by omega)]
        intro h
        exact hqJ ((Nat.div_lt_iff_lt_mul hJ).1 h |>.trans_eq (Nat.one_mul _))
    · intro g t' hg1 hg2 ⟨f1, f2, f3⟩
      have hlt : g * 2 ^ L + i < 64 := by
        clear e2 f3 hsrc h2 h3
        interval_cases L <;> simp only [Nat.reducePow] at hi hg2 ⊢ <;> omega
      simp only [Ok.bind_iff, Ok_get, Mem.Ok_put, Mem.Ok_get]
      refine ⟨by omega, wA.at (by omega) hw', by omega, f1, fun k hk => by rw [if_neg hk, f2 k hk], fun q hq => ?_⟩
      unfold tb at f3
      show (if i = i then t'.cell i ||| A.word (64 * b + (g * 2 ^ L + i)) w <<< (g * 2 ^ L) else t'.cell i).getLsbD q = _
      rw [if_pos rfl, BitVec.getLsbD_or, f3 q hq, BitVec.getLsbD_shiftLeft, decide_eq_true hq]
      have hJ : 0 < 2 ^ L := Nat.two_pow_pos L
      have hdm := Nat.div_add_mod q (2 ^ L)
      have hml := Nat.mod_lt q hJ
      rcases Nat.lt_trichotomy (q / 2 ^ L) g with hq' | hq' | hq'
      · have h5 : 2 ^ L * (q / 2 ^ L + 1) ≤ 2 ^ L * g := Nat.mul_le_mul_left _ hq'
        rw [Nat.mul_succ] at h5
        rw [if_pos hq', if_pos (by omega), decide_eq_true (show q < g * 2 ^ L by rw [Nat.mul_comm]; omega)]
        simp
      · rw [if_neg (by omega), if_pos (by omega), hq', decide_eq_false (show ¬ q < g * 2 ^ L by rw [Nat.mul_comm, ← hq']; omega),
          show q - g * 2 ^ L = q % 2 ^ L by rw [Nat.mul_comm, ← hq']; omega, Nat.mul_comm (2 ^ L) g]
        simp
      · have h5 : 2 ^ L * (g + 1) ≤ 2 ^ L * (q / 2 ^ L) := Nat.mul_le_mul_left _ hq'
        rw [Nat.mul_succ, Nat.mul_comm (2 ^ L) g] at h5
        rw [if_neg (by omega), if_neg (by omega), hsrc _ hlt (q - g * 2 ^ L) (by omega) (by omega)]
        simp
    · intro t' ⟨f1, f2, f3⟩
      refine ⟨f1, fun k hk q hq => ?_⟩
      by_cases hki : k = i
      · rw [hki, f3 q hq, if_pos]
        clear e2 f3 hsrc h2 h3 hi
        interval_cases L <;> simp only [Nat.reducePow] <;> omega
      · unfold tb
        rw [f2 k hki]
        exact e2 k (by omega) q hq
  · intro t ⟨e1, e2⟩
    have hJ5 : 2 ^ L ≤ 32 := by
      clear e2 hsrc h2 h3
      interval_cases L <;> simp
    refine Ok.bind (transpose_Nxjx64_spec (n := 2 ^ L) hJ5 fun s hs hs' => ?_) ?_
    · rw [e1]
      generalize 2 ^ L = J at hJ5
      interval_cases s <;> simp only [Nat.reducePow, Nat.reduceMul] <;> omega
    intro ⟨L', t2⟩ ⟨g1, g2, g3, g4, g5⟩
    simp only [] at g1 g2 g3 g4 g5 ⊢
    have hLL : L' = L := by
      have a1 : L ≤ L' := (Nat.pow_le_pow_iff_right (by omega)).1 g2
      rcases g3 with g3 | g3
      · omega
      · have a2 : L' - 1 < L := (Nat.pow_lt_pow_iff_right (by omega)).1 g3
        omega
    rw [hLL] at g5
    unfold storeCol
    refine (col_loop (fun k => t2.cell k) hD.wf (show 64 * w + n ≤ D.nrows by rw [hD.nrows]; omega) (show b < D.width by unfold Mzd.width; rw [hD.ncols]; omega)
      (Nat.zero_le _) fun k N _ hk => by rw [Mem.get_eq (by omega), C_ok_bind]).mono ?_
    intro N ⟨sh, hN⟩
    refine blk_of (m := n) (by omega) sh (fun a x => by rw [hN, Nat.add_zero]) fun k hk p hp => ?_
    have hJ : 0 < 2 ^ L := Nat.two_pow_pos L
    have hdm := Nat.div_add_mod p (2 ^ L)
    have hml := Nat.mod_lt p hJ
    have : (t2.cell k).getLsbD p = _ := g5 k (by omega) p hp hml
    have hlt : 2 ^ L * (p / 2 ^ L) + k < 64 := by
      clear this g5 e2 hsrc g2 g3 h3
      have hk' : k < 2 ^ L := by omega
      clear h2
      interval_cases L <;> simp only [Nat.reducePow] at hk' ⊢ <;> omega
    rw [this, e2 _ hml _ hlt, Nat.mul_add_div hJ, Nat.div_eq_of_lt (show k < 2 ^ L by omega), Nat.add_zero, Nat.mul_add_mod, Nat.mod_eq_of_lt (show k < 2 ^ L by omega), hdm,
      decide_eq_true (show 64 * b + p < A.nrows by omega)]
    rfl

end WB.m4w
