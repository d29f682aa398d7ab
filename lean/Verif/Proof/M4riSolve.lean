import Verif.Model.M4riSolve
import Verif.Proof.M4riSolveAlg
import Verif.Prop.C109
import Verif.Prop.C114

/-!
# Systems of linear equations from a PLUQ factorisation (helper lemmas)
-/
namespace WB.m4w

open WB.cmp (Mem Mem2)

/-! ## `mzd_is_zero` -/

theorem or_loop {A : Mzd} (w : A.Wf) {i : Nat} (hi : i < A.nrows) {k : Nat} (hk : k ≤ A.width) (s : Word) :
    Ok (forUp 0 k s fun j status => do pure (status ||| (← A.get i j))) fun t => ∀ p, t.getLsbD p = true ↔ s.getLsbD p = true ∨ ∃ j < k, (A.word i j).getLsbD p = true := by
  refine Ok.forUp (P := fun k t => ∀ p, t.getLsbD p = true ↔ s.getLsbD p = true ∨ ∃ j < k, (A.word i j).getLsbD p = true) (Nat.zero_le _) (fun p => by simp) ?_ (fun t h => h)
  intro j t _ hj ht
  rw [get_eq (w.at hi (by omega)), C_ok_bind, Ok.pure_iff]
  intro p
  rw [BitVec.getLsbD_or, Bool.or_eq_true, ht]
  constructor
  · rintro ((h | ⟨l, hl, h⟩) | h)
    · exact .inl h
    · exact .inr ⟨l, by omega, h⟩
    · exact .inr ⟨j, by omega, h⟩
  · rintro (h | ⟨l, hl, h⟩)
    · exact .inl (.inl h)
    · by_cases e : l = j
      · subst e; exact .inr h
      · exact .inl (.inr ⟨l, by omega, h⟩)

theorem word_zero_iff (s : Word) : s = 0#64 ↔ ∀ p, s.getLsbD p = false := by
  constructor
  · rintro rfl p; simp
  · intro h
    exact BitVec.eq_of_getLsbD_eq fun i _ => by rw [h]; simp

theorem is_zero_from {A : Mzd} (w : A.Wf) (h0 : 0 < A.ncols) : ∀ k i, i + k = A.nrows →
    ∃ b, isZeroFrom A k i 0#64 = .ok b ∧ (b = true ↔ ∀ a, i ≤ a → a < A.nrows → ∀ j < A.ncols, A.bit a j = false) := by
  have hw := width_pos h0
  intro k
  induction k with
  | zero =>
    intro i hi
    exact ⟨true, rfl, by simp; intro a h1 h2; omega⟩
  | succ k ih =>
    intro i hi
    rw [isZeroFrom, if_neg (by omega)]
    obtain ⟨s, es, hs⟩ := or_loop w (i := i) (by omega) (show A.width - 1 ≤ A.width by omega) 0#64
    have hat := w.at (i := i) (j := A.width - 1) (by omega) (by omega)
    simp only [es, C_ok_bind, get_eq hat]
    have key : (s ||| (A.word i (A.width - 1) &&& A.high)) = 0#64 ↔ ∀ j < A.ncols, A.bit i j = false := by
      rw [word_zero_iff]
      constructor
      · intro h j hj
        have h1 := h (j % 64)
        rw [BitVec.getLsbD_or, Bool.or_eq_false_iff, BitVec.getLsbD_and] at h1
        by_cases hl : j / 64 = A.width - 1
        · have h2 := h1.2
          rw [high_bit A hl h0, decide_eq_true hj, Bool.and_true, ← hl] at h2
          exact h2
        · have h2 : ¬ s.getLsbD (j % 64) = true := by rw [h1.1]; simp
          rw [hs] at h2
          have := lt_width hj
          by_contra h3
          exact h2 (.inr ⟨j / 64, by omega, by unfold Mzd.bit at h3; simpa using h3⟩)
      · intro h p
        rw [BitVec.getLsbD_or, Bool.or_eq_false_iff, BitVec.getLsbD_and]
        by_cases hp : p < 64
        · constructor
          · by_contra h1
            rw [Bool.not_eq_false, hs] at h1
            rcases h1 with h1 | ⟨j, hj, h1⟩
            · simp at h1
            · have h2 := h (64 * j + p) (by unfold Mzd.width at hj; omega)
              unfold Mzd.bit at h2
              rw [show (64 * j + p) / 64 = j by omega, show (64 * j + p) % 64 = p by omega, h1] at h2
              exact absurd h2 (by simp)
          · have e1 : (64 * (A.width - 1) + p) / 64 = A.width - 1 := by omega
            have e2 : (64 * (A.width - 1) + p) % 64 = p := by omega
            have h3 := high_bit A e1 h0
            rw [e2] at h3
            rw [h3]
            by_cases hc : 64 * (A.width - 1) + p < A.ncols
            · have h2 := h _ hc
              unfold Mzd.bit at h2
              rw [e1, e2] at h2
              rw [h2]; rfl
            · rw [decide_eq_false hc, Bool.and_false]
        · constructor
          · exact BitVec.getLsbD_of_ge _ _ (by omega)
          · rw [BitVec.getLsbD_of_ge _ _ (by omega)]; rfl
    by_cases hz : (s ||| (A.word i (A.width - 1) &&& A.high)) = 0#64
    · rw [if_neg (by simpa using hz), hz]
      obtain ⟨b, e, hb⟩ := ih (i + 1) (by omega)
      refine ⟨b, e, hb.trans ⟨fun h a h1 h2 => ?_, fun h a h1 h2 => h a (by omega) h2⟩⟩
      by_cases ha : a = i
      · subst ha; exact key.1 hz
      · exact h a (by omega) h2
    · rw [if_pos hz]
      exact ⟨false, rfl, by simp only [Bool.false_eq_true, false_iff]; exact fun h => hz (key.2 (h i (le_refl _) (by omega)))⟩

theorem is_zero_ok {A : Mzd} {r c : Nat} {X : Matrix (Fin r) (Fin c) (ZMod 2)} (h0 : 0 < c) (hA : Rep A X) : ∃ b, mzd_is_zero A = .ok b ∧ (b = true ↔ X = 0) := by
  obtain ⟨b, e, h⟩ := is_zero_from hA.wf (by rw [hA.ncols]; exact h0) A.nrows 0 (by omega)
  refine ⟨b, e, h.trans ⟨fun h => ?_, fun h a _ ha j hj => ?_⟩⟩
  · ext i j
    rw [← hA.bit, h i (by omega) (by rw [hA.nrows]; exact i.2) j (by rw [hA.ncols]; exact j.2)]
    rfl
  · rw [hA.nrows] at ha
    rw [hA.ncols] at hj
    have := hA.bit ⟨a, ha⟩ ⟨j, hj⟩
    rw [h] at this
    exact bitF_inj.1 (this.trans (by rfl : (0 : ZMod 2) = bitF false))

/-! ## Clearing rows -/

theorem clear_bits_ok {B : Mzd} (w : B.Wf) {i t : Nat} (hi : i < B.nrows) (ht : 64 * t < B.ncols) :
    Ok (mzd_clear_bits B i (64 * t) (min 64 (B.ncols - 64 * t))) fun N => Sh B N ∧ ∀ a b, N.bit a b = if a = i ∧ b / 64 = t ∧ b < B.ncols then false else B.bit a b := by
  unfold mzd_clear_bits
  rw [if_neg (by omega)]
  have hat := w.at (i := i) (j := t) hi (by unfold Mzd.width; omega)
  have e1 : 64 * t / 64 = t := by omega
  have e2 : 64 * t % 64 = 0 := by omega
  simp only [e1, e2]
  rw [get_eq hat, C_ok_bind, put_eq _ hat, C_ok_bind, if_neg (by omega), Ok.pure_iff]
  refine ⟨Sh.set _ _ _ _, fun a b => ?_⟩
  rw [bit_set]
  by_cases h : a = i ∧ b / 64 = t
  · rw [if_pos h, BitVec.getLsbD_and, BitVec.getLsbD_not, decide_eq_true (show b % 64 < 64 by omega), Bool.true_and, BitVec.shiftLeft_zero]
    have e3 : (ffff >>> (64 - min 64 (B.ncols - 64 * t))).getLsbD (b % 64) = decide (b < B.ncols) := by
      have : ffff = BitVec.allOnes 64 := by decide
      rw [this, BitVec.getLsbD_ushiftRight, BitVec.getLsbD_allOnes]
      exact decide_eq_decide.2 (by omega)
    rw [e3]
    by_cases hb : b < B.ncols
    · rw [if_pos ⟨h.1, h.2, hb⟩, decide_eq_true hb]; simp
    · rw [if_neg (by omega), decide_eq_false hb, Bool.not_false, Bool.and_true]
      unfold Mzd.bit
      rw [h.1, h.2]
  · rw [if_neg h, if_neg (fun h' => h ⟨h'.1, h'.2.1⟩)]

theorem clear_from_ok {B : Mzd} (w : B.Wf) {k : Nat} (hk : k ≤ B.nrows) :
    Ok (clearFrom k B) fun N => Sh B N ∧ ∀ a b, N.bit a b = if k ≤ a ∧ a < B.nrows ∧ b < B.ncols then false else B.bit a b := by
  unfold clearFrom
  refine Ok.forUp (P := fun i N => Sh B N ∧ ∀ a b, N.bit a b = if k ≤ a ∧ a < i ∧ b < B.ncols then false else B.bit a b) hk ⟨Sh.refl B, fun a b => by rw [if_neg (by omega)]⟩ ?_ (fun N h => h)
  intro i N h1 hi ⟨sh, hN⟩
  have hw : (N.ncols + 63) / 64 = (B.ncols + 63) / 64 := by rw [sh.ncols]
  refine Ok.forUp (P := fun t D => Sh B D ∧ ∀ a b, D.bit a b = if a = i ∧ b / 64 < t ∧ b < B.ncols then false else N.bit a b) (Nat.zero_le _) ⟨sh, fun a b => by rw [if_neg (by omega)]⟩ ?_ ?_
  · intro t D _ ht ⟨sh', hD⟩
    refine (clear_bits_ok (sh'.wf w) (i := i) (t := t) (by rw [sh'.nrows]; exact hi) (by rw [sh'.ncols]; omega)).mono ?_
    intro E ⟨sh'', hE⟩
    refine ⟨sh'.trans sh'', fun a b => ?_⟩
    rw [hE, hD, sh'.ncols]
    by_cases hx : a = i ∧ b / 64 = t ∧ b < B.ncols
    · rw [if_pos hx, if_pos ⟨hx.1, by omega, hx.2.2⟩]
    · rw [if_neg hx]
      exact if_congr (by omega) rfl rfl
  · intro D ⟨sh', hD⟩
    refine ⟨sh', fun a b => ?_⟩
    rw [hD, hN]
    by_cases hx : a = i ∧ b / 64 < (N.ncols + 63) / 64 ∧ b < B.ncols
    · rw [if_pos hx, if_pos (by omega)]
    · rw [if_neg hx]
      exact if_congr (by omega) rfl rfl

/-! ## Triangular systems in windows -/

section
variable {n c : Nat} {ML MB : Mzd} {A : Matrix (Fin n) (Fin n) (ZMod 2)} {B : Matrix (Fin n) (Fin c) (ZMod 2)}

theorem lower_wr (junk : Nat → Word) (mb : Mzd → Mzd → C Mzd) (bs dflt cutoff : Nat) (e : List Nat → TrsmEnv) (hbs : 64 ≤ bs) (hcut : asked dflt cutoff < 2 ^ 29) (hn : n ≤ 2 ^ 24)
    (h0 : 0 < c) (hc : c < 2 ^ 29) (hL : Rep ML A) (hB : Rep MB B) (cB : bs < n → MB.Clean) :
    Ok (mzd_trsm_lower_left (mzd_transpose_any junk mb) bs dflt cutoff e ML MB) fun N => ∃ X, Wr MB N X ∧ unitLower A * X = B := by
  unfold mzd_trsm_lower_left
  rw [hL.ncols, hL.nrows, hB.nrows, if_neg (by simp), if_neg (by simp)]
  obtain ⟨N, h1, h2⟩ := lower_left (junk := junk) (mb := mb) h0 hc hbs hcut (n + 1) e n ML MB (by omega) hn hL.wf hL.nrows hL.ncols hB.wf hB.nrows hB.ncols cB
  exact ⟨N, h1, _, ⟨h2.sh, (bitsOf_rep hB h2.sh).bit, h2.out⟩, h2.lower hL hB⟩

theorem upper_wr (junk : Nat → Word) (mb : Mzd → Mzd → C Mzd) (bs cutoff : Nat) (e : List Nat → TrsmEnv) (hbs : 256 ≤ bs) (hcut : n ≤ bs ∨ cutoff % 64 = 0 ∧ cutoff < 2 ^ 29) (hn : n ≤ 2 ^ 24)
    (h0 : 0 < c) (hc : c < 2 ^ 29) (hL : Rep ML A) (cL : bs < n → ML.Clean) (hB : Rep MB B) (cB : bs < n → MB.Clean) :
    Ok (mzd_trsm_upper_left (mzd_transpose_any junk mb) bs cutoff e ML MB) fun N => ∃ X, Wr MB N X ∧ unitUpper A * X = B := by
  unfold mzd_trsm_upper_left
  rw [hL.ncols, hL.nrows, hB.nrows, if_neg (by simp), if_neg (by simp)]
  by_cases hs : n ≤ bs
  · rw [_mzd_trsm_upper_left]
    simp only []
    rw [hB.nrows]
    by_cases h64 : n ≤ 64
    · rw [if_pos h64]
      obtain ⟨N, h1, h2⟩ := upperLeftBase_spec hL.wf hL.nrows hL.ncols hB.wf hB.nrows hB.ncols h0 h64
      exact ⟨N, h1, _, ⟨h2.sh, (bitsOf_rep hB h2.sh).bit, h2.out⟩, h2.upper hL hB⟩
    · rw [if_neg h64, if_pos hs]
      obtain ⟨N, h1, h2⟩ := upper_left_russian hL.wf hL.nrows hL.ncols hB.wf hB.nrows hB.ncols h0 (by omega) (e []).align (e []).k0
      exact ⟨N, h1, _, ⟨h2.sh, (bitsOf_rep hB h2.sh).bit, h2.out⟩, h2.upper hL hB⟩
  · obtain ⟨N, h1, h2⟩ := upper_left (junk := junk) (mb := mb) h0 hc hbs (hcut.resolve_left hs) (n + 1) e n ML MB (by omega) hn hL.wf hL.nrows hL.ncols hB.wf hB.nrows hB.ncols cB cL
    exact ⟨N, h1, _, ⟨h2.sh, (bitsOf_rep hB h2.sh).bit, h2.out⟩, h2.upper hL hB⟩

end

/-! ## Windows of whole rows -/

section
variable {r c : Nat} {M : Mzd} {B : Matrix (Fin r) (Fin c) (ZMod 2)}

/-- The rows from `x` to `x + h - 1`. -/
def rowsOf (B : Matrix (Fin r) (Fin c) (ZMod 2)) (x h : Nat) (hx : x + h ≤ r) : Matrix (Fin h) (Fin c) (ZMod 2) := fun i j => B ⟨x + i, by omega⟩ j

theorem rows_rep (hM : Rep M B) {x h : Nat} (hx : x + h ≤ r) : Rep (mzd_window M x 0 (x + h) M.ncols) (rowsOf B x h hx) := by
  have h1 := window_rep hM.wf (x := x) (x' := x + h) (y := 0) (y' := M.ncols) (r := h) (c := c) (by omega) (by omega) (by omega) (by rw [hM.nrows]; exact hx) (le_refl _) (by omega)
    (by rw [hM.ncols]; omega)
  refine ⟨h1.wf, h1.nrows, h1.ncols, fun i j => ?_⟩
  rw [h1.bit]
  unfold blk rowsOf
  rw [← hM.bit, Nat.zero_add]

theorem rows_clean (hM : Rep M B) (cl : M.Clean) {x h : Nat} (hx : x + h ≤ r) : (mzd_window M x 0 (x + h) M.ncols).Clean :=
  window_clean cl (by omega) (by omega) (by omega) (by rw [hM.nrows]; exact hx) (.inl rfl)

theorem on_rows (hM : Rep M B) (cl : M.Clean) {x h : Nat} (hx : x + h ≤ r) {f : Mzd → C Mzd} {p : Matrix (Fin h) (Fin c) (ZMod 2) → Prop}
    (hf : Ok (f (mzd_window M x 0 (x + h) M.ncols)) fun N => ∃ Y, Wr (mzd_window M x 0 (x + h) M.ncols) N Y ∧ p Y) :
    Ok (onWindow M x 0 (x + h) M.ncols f) fun N => ∃ B' Y, Rep N B' ∧ N.Clean ∧ (∀ a b, c ≤ b → N.bit a b = M.bit a b) ∧ p Y ∧ (∀ (i : Fin h) j, B' ⟨x + i, by omega⟩ j = Y i j) ∧
      ∀ (i : Fin r) j, ((i : Nat) < x ∨ x + h ≤ (i : Nat)) → B' i j = B i j := by
  obtain ⟨W, eW, Y, hW, hp⟩ := hf
  obtain ⟨N, e, sh, h1, h2⟩ := onWindow_spec hM.wf (show 0 % 64 = 0 by rfl) ⟨W, eW, hW⟩
  have hr : Rep N (fun (i : Fin r) (j : Fin c) => bitF (N.bit i j)) := ⟨sh.wf hM.wf, sh.nrows.trans hM.nrows, sh.ncols.trans hM.ncols, fun _ _ => rfl⟩
  refine ⟨N, e, _, Y, hr, fun i hi j g1 g2 => ?_, fun a b hb => h2 a b (by omega), hp, fun i j => ?_, fun i j hi => ?_⟩
  · rw [sh.ncols] at g1
    rw [sh.width] at g2
    rw [sh.nrows] at hi
    rw [h2 i j (by rw [hM.ncols] at g1; omega)]
    exact cl i hi j g1 g2
  · rw [← h1 i j, Nat.zero_add]
  · show bitF (N.bit i j) = _
    rw [h2 i j (by omega), hM.bit]

end

/-! ## The test for inconsistency -/

/-- What lies below the rows of `L` that are solved first. -/
def lowPart {m n k : Nat} (F : Matrix (Fin m) (Fin n) (ZMod 2)) (hm : k ≤ m) (hn : k ≤ n) : Matrix (Fin (m - k)) (Fin k) (ZMod 2) := fun i j => F ⟨k + i, by omega⟩ ⟨j, by omega⟩

theorem low_rep {MA : Mzd} {m n k : Nat} {F : Matrix (Fin m) (Fin n) (ZMod 2)} (hA : Rep MA F) (hm : k ≤ m) (hn : k ≤ n) :
    Rep (mzd_window MA k 0 m k) (lowPart F hm hn) := by
  have h1 := window_rep hA.wf (x := k) (x' := m) (y := 0) (y' := k) (r := m - k) (c := k) (by omega) (by omega) hm (by rw [hA.nrows]) (by rw [hA.ncols]; exact hn) rfl (by omega)
  refine ⟨h1.wf, h1.nrows, h1.ncols, fun i j => ?_⟩
  rw [h1.bit]
  unfold blk lowPart
  rw [← hA.bit, Nat.zero_add]

theorem low_clean {MA : Mzd} {m n k : Nat} {F : Matrix (Fin m) (Fin n) (ZMod 2)} (hA : Rep MA F) (cA : MA.Clean) (hm : k ≤ m) (hn : k ≤ n)
    (hz : ∀ (a : Fin m) (b : Fin n), k ≤ (a : Nat) → k ≤ (b : Nat) → F a b = 0) : (mzd_window MA k 0 m k).Clean := by
  intro i hi j h1 h2
  rw [window_nrows (by rw [hA.nrows])] at hi
  have h3 : k - 0 ≤ j := h1
  have h4 : j < 64 * ((k - 0 + 63) / 64) := h2
  rw [window_bit MA rfl, Nat.zero_add]
  by_cases hj : j < n
  · have e := hA.bit ⟨k + i, by omega⟩ ⟨j, hj⟩
    rw [hz _ _ (by show k ≤ k + i; omega) (by show k ≤ j; omega)] at e
    exact bitF_inj.1 (e.trans (by rfl : (0 : ZMod 2) = bitF false))
  · refine cA _ (by rw [hA.nrows]; omega) _ (by rw [hA.ncols]; omega) ?_
    unfold Mzd.width
    rw [hA.ncols]
    omega

theorem corner_rep {MA : Mzd} {m n k : Nat} {F : Matrix (Fin m) (Fin n) (ZMod 2)} (hA : Rep MA F) (hm : k ≤ m) (hn : k ≤ n) :
    Rep (mzd_window MA 0 0 k k) (F.submatrix (Fin.castLE hm) (Fin.castLE hn)) := by
  have h1 := window_rep hA.wf (x := 0) (x' := k) (y := 0) (y' := k) (r := k) (c := k) (by omega) (by omega) (by omega) (by rw [hA.nrows]; exact hm) (by rw [hA.ncols]; exact hn) (by omega) (by omega)
  refine ⟨h1.wf, h1.nrows, h1.ncols, fun i j => ?_⟩
  rw [h1.bit]
  unfold blk
  rw [Nat.zero_add, Nat.zero_add]
  exact hA.bit ⟨i, by omega⟩ ⟨j, by omega⟩

theorem clear_below {M : Mzd} {r c m : Nat} {B : Matrix (Fin r) (Fin c) (ZMod 2)} (hM : Rep M B) (cl : M.Clean) (h0 : 0 < c) (hmr : m ≤ r) :
    Ok (zeroBelow m M) fun N => ∃ B', Rep N B' ∧ N.Clean ∧ (∀ a b, c ≤ b → N.bit a b = M.bit a b) ∧
      (∀ (i : Fin r) j, (i : Nat) < m → B' i j = B i j) ∧ ∀ (i : Fin r) j, m ≤ (i : Nat) → B' i j = 0 := by
  unfold zeroBelow
  by_cases h : m < M.nrows
  · rw [if_pos h]
    have hx : m + (r - m) ≤ r := by omega
    have e : m + (r - m) = M.nrows := by rw [hM.nrows]; omega
    have hw := rows_rep hM hx
    have := on_rows hM cl hx (f := fun W => mzd_set_ui W 0) (p := fun Y => Y = 0) ((zero_wr h0 hw.wf hw.nrows hw.ncols).mono fun N h => ⟨0, h, rfl⟩)
    rw [e] at this
    refine this.mono ?_
    rintro N ⟨B', Y, hN, cN, out, rfl, h1, h2⟩
    refine ⟨B', hN, cN, out, fun i j hi => h2 i j (.inl hi), fun i j hi => ?_⟩
    have := h1 ⟨i - m, by omega⟩ j
    rw [show (⟨m + (i - m), by omega⟩ : Fin r) = i from Fin.ext (by show m + (i - m : Nat) = i; omega)] at this
    exact this
  · rw [if_neg h, Ok.pure_iff]
    rw [hM.nrows] at h
    exact ⟨B, hM, cl, fun _ _ _ => rfl, fun _ _ _ => rfl, fun i j hi => absurd i.2 (by omega)⟩

theorem check_ok {junk : Nat → Word} {mb : Mzd → Mzd → C Mzd} {dflt cutoff : Nat} {e : List Nat → MulEnv} {m n k r c : Nat} {MA MB : Mzd} {F : Matrix (Fin m) (Fin n) (ZMod 2)}
    {B : Matrix (Fin r) (Fin c) (ZMod 2)} (hA : Rep MA F) (cA : MA.Clean) (hB : Rep MB B) (cB : MB.Clean) (h0 : 0 < c) (hc : c < 2 ^ 29) (hm : k ≤ m) (hn : k ≤ n) (hmr : m ≤ r) (hk : k ≤ 2 ^ 24)
    (hm' : m < 2 ^ 29) (hz : ∀ (a : Fin m) (b : Fin n), k ≤ (a : Nat) → k ≤ (b : Nat) → F a b = 0) (hcut : asked dflt cutoff < 2 ^ 29)
    (hbad : asked dflt cutoff < 128 → ¬ Crashes (m - k) k c) :
    Ok (checkRest (mzd_transpose_any junk mb) dflt cutoff e MA k MB) fun s => ∃ B', Rep s.1 B' ∧ s.1.Clean ∧ (∀ a b, c ≤ b → s.1.bit a b = MB.bit a b) ∧
      (∀ (i : Fin r) j, (i : Nat) < k → B' i j = B i j) ∧ (∀ (i : Fin r) j, m ≤ (i : Nat) → B' i j = 0) ∧
      (∀ (i : Fin (m - k)) j, B' ⟨k + i, by omega⟩ j = B ⟨k + i, by omega⟩ j +
        (lowPart F hm hn * B.submatrix (Fin.castLE (hm.trans hmr)) id) i j) ∧
      (s.2 = 0 ∨ s.2 = -1) ∧ (s.2 = 0 ↔ ∀ (i : Fin (m - k)) j, B' ⟨k + i, by omega⟩ j = 0) := by
  unfold checkRest
  rw [hA.nrows]
  refine Ok.bind (clear_below hB cB h0 hmr) ?_
  rintro M1 ⟨B1, h1, c1, o1, a1, z1⟩
  have hx : k + (m - k) ≤ r := by omega
  have ex : k + (m - k) = m := by omega
  have hx0 : 0 + k ≤ r := by omega
  have hY := rows_rep h1 hx0
  have cY := rows_clean h1 c1 hx0
  have hW := rows_rep h1 hx
  rw [Nat.zero_add] at hY cY
  have step := on_rows h1 c1 hx (f := fun W => mzd_addmul (mzd_transpose_any junk mb) e true dflt cutoff W (mzd_window MA k 0 m k) (mzd_window M1 0 0 k M1.ncols)) (p := fun Y => Y = rowsOf B1 k (m - k) hx +
      lowPart F hm hn * rowsOf B1 0 k hx0)
    (((addmul_adds (junk := junk) (mb := mb) (e := e) (win := true) hk (show m - k < 2 ^ 29 by omega) hc hcut hbad) hW (low_rep hA hm hn) (low_clean hA cA hm hn hz) hY cY).mono
      fun N h => ⟨_, h, rfl⟩)
  rw [ex] at step
  refine Ok.bind step ?_
  rintro M2 ⟨B2, Y, h2, c2, o2, rfl, a2, b2⟩
  have hW2 := rows_rep h2 hx
  rw [ex] at hW2
  obtain ⟨b, eb, hb⟩ := is_zero_ok h0 hW2
  rw [eb, C_ok_bind, Ok.pure_iff]
  have top : rowsOf B1 0 k hx0 = B.submatrix (Fin.castLE (hm.trans hmr)) id := by
    ext i j
    show B1 ⟨0 + i, by omega⟩ j = B ⟨i, by omega⟩ j
    rw [a1 _ _ (by show 0 + (i : Nat) < m; omega)]
    congr 2
    omega
  refine ⟨B2, h2, c2, fun a b hb => (o2 a b hb).trans (o1 a b hb), fun i j hi => (b2 i j (.inl hi)).trans (a1 i j (by omega)), fun i j hi => (b2 i j (.inr (by omega))).trans (z1 i j hi),
    fun i j => ?_, ?_, ?_⟩
  · rw [a2 i j, Matrix.add_apply, top]
    congr 1
    exact a1 _ _ (by show k + (i : Nat) < m; omega)
  · cases b <;> simp
  · have hb' : (b = true) ↔ ∀ (i : Fin (m - k)) j, B2 ⟨k + i, by omega⟩ j = 0 := hb.trans ⟨fun h i j => congrFun (congrFun h i) j, fun h => by ext i j; exact h i j⟩
    rw [← hb']
    cases b <;> simp

/-! ## The factors -/

section
variable {m n k : Nat} {MA : Mzd} {F : Matrix (Fin m) (Fin n) (ZMod 2)} {L : Matrix (Fin m) (Fin k) (ZMod 2)} {U : Matrix (Fin k) (Fin n) (ZMod 2)}

theorem factor_lower (hA : Rep MA F) (hm : k ≤ m) (hn : k ≤ n) (hL : ∀ a j, L a j = if (j : Nat) < a then bitF (MA.bit a j) else if (j : Nat) = a then 1 else 0) :
    L.submatrix (Fin.castLE hm) id = unitLower (F.submatrix (Fin.castLE hm) (Fin.castLE hn)) := by
  ext i j
  show L ⟨i, by omega⟩ j = _
  unfold unitLower
  rw [hL]
  by_cases h : i = j
  · subst h
    rw [if_neg (by simp), if_pos rfl, if_pos rfl]
  · rw [if_neg h]
    by_cases h' : (j : Nat) < i
    · rw [if_pos h', if_pos (show j < i from h')]
      exact hA.bit ⟨i, by omega⟩ ⟨j, by omega⟩
    · rw [if_neg h', if_neg (fun h2 => h (Fin.ext h2.symm)), if_neg (show ¬ j < i from h')]

theorem factor_upper (hA : Rep MA F) (hm : k ≤ m) (hn : k ≤ n) (hU : ∀ i b, U i b = if (i : Nat) < b then bitF (MA.bit i b) else if (i : Nat) = b then 1 else 0) :
    U.submatrix id (Fin.castLE hn) = unitUpper (F.submatrix (Fin.castLE hm) (Fin.castLE hn)) := by
  ext i j
  show U i ⟨j, by omega⟩ = _
  unfold unitUpper
  rw [hU]
  by_cases h : i = j
  · subst h
    rw [if_neg (by simp), if_pos rfl, if_pos rfl]
  · rw [if_neg h]
    by_cases h' : (i : Nat) < j
    · rw [if_pos h', if_pos (show i < j from h')]
      exact hA.bit ⟨i, by omega⟩ ⟨j, by omega⟩
    · rw [if_neg h', if_neg (fun h2 => h (Fin.ext h2)), if_neg (show ¬ i < j from h')]

end

end WB.m4w
