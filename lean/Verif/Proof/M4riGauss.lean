import Verif.Proof.M4riRowEq

/-!
# `_mzd_gauss_submatrix_full` (helper lemmas)
-/
namespace WB.m4w

theorem getBit_eq (w : Word) (s : Nat) : getBit w s = w.getLsbD s := and_one_ne w s

/-- An identity matrix of `t` rows and columns has been made from row `r` and column `c` on. -/
structure GS (M0 : Mzd) (r c t : Nat) (M : Mzd) : Prop where
  sh : Sh M0 M
  eq : RowEq M0.nrows M0.ncols M0.bit M.bit
  out : ∀ a b, a < r ∨ M0.nrows ≤ a ∨ M0.ncols ≤ b → M.bit a b = M0.bit a b
  left : ∀ a b, r ≤ a → a < M0.nrows → b < c → M.bit a b = false
  ident : ∀ l < t, ∀ l' < t, M.bit (r + l) (c + l') = decide (l = l')

/-- Adding a row whose entries before column `off` are zero. -/
theorem GS.add {M0 M : Mzd} {r c t dst src off : Nat} (h : GS M0 r c t M) (w : M0.Wf) (hd : r ≤ dst) (hd' : dst < M0.nrows) (hs : src < M0.nrows) (hne : dst ≠ src)
    (ho : off < M0.ncols) (hc : c ≤ off) (hz : ∀ b < off, M.bit src b = false) (hi : ∀ l < t, dst = r + l → c + t ≤ off) :
    Ok (mzd_row_add_offset M dst src off) fun N => GS M0 r c t N ∧ ∀ a b, N.bit a b = addBit M.bit dst src off M0.ncols a b := by
  refine (row_add (h.sh.wf w) (by rw [h.sh.nrows]; exact hd') (by rw [h.sh.nrows]; exact hs) (by rw [h.sh.ncols]; exact ho) hne).mono ?_
  intro N ⟨sh, hN⟩
  rw [h.sh.ncols] at hN
  refine ⟨⟨h.sh.trans sh, ?_, ?_, ?_, ?_⟩, hN⟩
  · refine h.eq.trans ((RowEq.add hs hne (Nat.le_refl _) hz).trans (RowEq.of_eq fun i _ j _ => hN i j))
  · intro a b hab
    rw [hN]
    unfold addBit
    rw [if_neg (by omega)]
    exact h.out a b hab
  · intro a b h1 h2 h3
    rw [hN]
    unfold addBit
    rw [if_neg (by omega)]
    exact h.left a b h1 h2 h3
  · intro l hl l' hl'
    rw [hN]
    unfold addBit
    rw [if_neg]
    · exact h.ident l hl l' hl'
    · intro hh
      have := hi l hl hh.1.symm
      omega

theorem GS.swap {M0 M : Mzd} {r c t p q : Nat} (h : GS M0 r c t M) (w : M0.Wf) (hp : r + t ≤ p) (hp' : p < M0.nrows) (hq : r + t ≤ q) (hq' : q < M0.nrows) :
    Ok (mzd_row_swap M p q) fun N => GS M0 r c t N ∧ ∀ a b, N.bit a b = swapBit M.bit p q M0.ncols a b := by
  refine (row_swap (h.sh.wf w) (by rw [h.sh.nrows]; exact hp') (by rw [h.sh.nrows]; exact hq')).mono ?_
  intro N ⟨sh, hN⟩
  rw [h.sh.ncols] at hN
  refine ⟨⟨h.sh.trans sh, ?_, ?_, ?_, ?_⟩, hN⟩
  · exact h.eq.trans ((RowEq.swap hp' hq' (Nat.le_refl _)).trans (RowEq.of_eq fun i _ j _ => hN i j))
  · intro a b hab
    rw [hN, ← h.out a b hab]
    unfold swapBit
    split
    · rw [if_neg (by omega), if_neg (by omega)]
    · rfl
  · intro a b h1 h2 h3
    rw [hN]
    unfold swapBit
    split
    · split
      · exact h.left q b (by omega) hq' h3
      · split
        · exact h.left p b (by omega) hp' h3
        · exact h.left a b h1 h2 h3
    · exact h.left a b h1 h2 h3
  · intro l hl l' hl'
    rw [hN, ← h.ident l hl l' hl']
    unfold swapBit
    split
    · rw [if_neg (by omega), if_neg (by omega)]
    · rfl

/-- The row `r + l` of the identity matrix has no entries before column `c + l`. -/
theorem GS.zero {M0 M : Mzd} {r c t : Nat} (h : GS M0 r c t M) {l : Nat} (hl : l < t) (hr : r + t ≤ M0.nrows) {b : Nat} (hb : b < c + l) : M.bit (r + l) b = false := by
  by_cases hbc : b < c
  · exact h.left _ _ (by omega) (by omega) hbc
  · have := h.ident l hl (b - c) (by omega)
    rw [show c + (b - c) = b by omega, decide_eq_false (by omega)] at this
    exact this

/-- The entries of row `i` above the identity matrix are cleared. -/
theorem clearRow {M0 M : Mzd} {r c t i : Nat} (w : M0.Wf) (h : GS M0 r c t M) (hi : r + t ≤ i) (hi' : i < M0.nrows) (hc : c + t < M0.ncols) {tmp : Word}
    (ht : ∀ l < t, tmp.getLsbD l = M.bit i (c + l)) :
    Ok (forUp 0 t M fun l A => if getBit tmp l then mzd_row_add_offset A i (r + l) (c + l) else pure A) fun N =>
      GS M0 r c t N ∧ (∀ a b, a ≠ i → N.bit a b = M.bit a b) ∧ (∀ l < t, N.bit i (c + l) = false) ∧ (t = 0 → ∀ a b, N.bit a b = M.bit a b) := by
  refine Ok.forUp (P := fun l N => GS M0 r c t N ∧ (∀ a b, a ≠ i → N.bit a b = M.bit a b) ∧ (∀ l' < t, N.bit i (c + l') = (decide (l ≤ l') && M.bit i (c + l'))) ∧
      (t = 0 → ∀ a b, N.bit a b = M.bit a b)) (Nat.zero_le _)
    ⟨h, fun _ _ _ => rfl, fun l' _ => by simp, fun _ _ _ => rfl⟩ ?_ ?_
  · intro l N _ hl ⟨h1, h2, h3, _⟩
    rw [getBit_eq, ht l hl]
    cases hb : M.bit i (c + l)
    · rw [if_neg (by simp), Ok.pure_iff]
      refine ⟨h1, h2, fun l' hl' => ?_, fun h0 => by omega⟩
      rw [h3 l' hl']
      by_cases hll : l' = l
      · subst hll; rw [hb]; simp
      · congr 1; rw [decide_eq_decide]; omega
    · rw [if_pos rfl]
      refine (h1.add w (by omega) hi' (by omega) (by omega) (by omega) (by omega) (fun b hb => h1.zero hl (by omega) hb) (by intro l' hl' he; omega)).mono ?_
      intro N' ⟨h1', hN'⟩
      refine ⟨h1', fun a b ha => ?_, fun l' hl' => ?_, fun h0 => by omega⟩
      · rw [hN']; unfold addBit; rw [if_neg (by omega)]; exact h2 a b ha
      · rw [hN']
        unfold addBit
        by_cases hll : l ≤ l'
        · rw [if_pos ⟨rfl, by omega, by omega⟩, h3 l' hl', h1.ident l hl l' hl', decide_eq_true hll, Bool.true_and]
          by_cases he : l = l'
          · subst he; rw [hb]; simp
          · rw [decide_eq_false he, decide_eq_true (by omega)]; simp
        · rw [if_neg (by omega), h3 l' hl', decide_eq_false hll, decide_eq_false (by omega)]
  · intro N ⟨h1, h2, h3, h4⟩
    exact ⟨h1, h2, fun l hl => by rw [h3 l hl, decide_eq_false (by omega)]; rfl, h4⟩

/-- One more column. -/
theorem gaussCol_spec {M0 M : Mzd} {r c t : Nat} (w : M0.Wf) (h : GS M0 r c t M) (hr : r + t ≤ M0.nrows) (hc : c + t < M0.ncols) (ht : t < 64) :
    Ok (gaussCol r c M0.nrows (r + t) (c + t) M) fun x => (x.2 = true ∧ GS M0 r c (t + 1) x.1 ∧ r + t < M0.nrows) ∨
      (x.2 = false ∧ GS M0 r c t x.1 ∧ (∀ a, r + t ≤ a → a < M0.nrows → ∀ l ≤ t, x.1.bit a (c + l) = false) ∧ (t = 0 → ∀ a b, x.1.bit a b = M.bit a b)) := by
  unfold gaussCol
  refine Ok.forBrk (fun i (s : Mzd × Bool) => s.2 = false ∧ GS M0 r c t s.1 ∧ (∀ a, r + t ≤ a → a < i → ∀ l ≤ t, s.1.bit a (c + l) = false) ∧ (t = 0 → ∀ a b, s.1.bit a b = M.bit a b))
    (fun x => x.2 = true ∧ GS M0 r c (t + 1) x.1 ∧ r + t < M0.nrows) hr ⟨rfl, h, fun a h1 h2 => by omega, fun _ _ _ => rfl⟩ ?_ (fun s hs => Or.inr hs) (fun s hs => Or.inl hs)
  intro i s hi hi' ⟨hs, hg, hz, hsame⟩
  have wf := hg.sh.wf w
  rw [show c + t - c = t by omega]
  refine Ok.bind (read_bits wf (by rw [hg.sh.nrows]; exact hi') (by omega) (by omega) (by unfold Mzd.width; rw [hg.sh.ncols]; omega)) ?_
  intro tmp htmp
  by_cases h0 : tmp = 0#64
  · rw [if_neg (by simp [h0]), Ok.pure_iff, Step.holds_next]
    refine ⟨hs, hg, fun a h1 h2 l hl => ?_, hsame⟩
    by_cases ha : a = i
    · subst ha
      have := htmp l
      rw [h0, decide_eq_true (by omega)] at this
      simpa using this.symm
    · exact hz a h1 (by omega) l hl
  rw [if_pos h0]
  refine Ok.bind (clearRow w hg hi hi' hc fun l hl => by rw [htmp, decide_eq_true (by omega), Bool.true_and]) ?_
  intro A ⟨hA, hAo, hAz, hA0⟩
  rw [read_bit (hA.sh.wf w) (by rw [hA.sh.nrows]; exact hi') (by rw [hA.sh.ncols]; exact hc), C_ok_bind]
  cases hb : A.bit i (c + t)
  · rw [if_neg (by simp), Ok.pure_iff, Step.holds_next]
    refine ⟨rfl, hA, fun a h1 h2 l hl => ?_, fun h0 a b => (hA0 h0 a b).trans (hsame h0 a b)⟩
    by_cases ha : a = i
    · subst ha
      by_cases hlt : l = t
      · rw [hlt]; exact hb
      · exact hAz l (by omega)
    · show A.bit a (c + l) = false
      rw [hAo a _ ha]; exact hz a h1 (by omega) l hl
  rw [if_pos rfl]
  refine Ok.bind (hA.swap w hi hi' (Nat.le_refl _) (show r + t < M0.nrows by omega)) ?_
  intro B ⟨hB, hBb⟩
  have hrow : ∀ l ≤ t, B.bit (r + t) (c + l) = decide (l = t) := by
    intro l hl
    have e : B.bit (r + t) (c + l) = A.bit i (c + l) := by
      rw [hBb]
      unfold swapBit
      rw [if_pos (by omega)]
      split
      · rename_i h; rw [h]
      · rw [if_pos rfl]
    rw [e]
    by_cases hlt : l = t
    · rw [hlt, hb]; simp
    · rw [hAz l (by omega), decide_eq_false hlt]
  refine Ok.bind (P := fun N => GS M0 r c t N ∧ (∀ b, N.bit (r + t) b = B.bit (r + t) b) ∧ ∀ a, r ≤ a → a < r + t → N.bit a (c + t) = false) ?_ ?_
  · refine Ok.forUp (P := fun l N => GS M0 r c t N ∧ (∀ b, N.bit (r + t) b = B.bit (r + t) b) ∧ ∀ a, r ≤ a → a < l → N.bit a (c + t) = false) (by omega)
      ⟨hB, fun _ => rfl, fun a h1 h2 => by omega⟩ ?_ (fun N h => h)
    intro l N hl hl' ⟨h1, h2, h3⟩
    rw [read_bit (h1.sh.wf w) (by rw [h1.sh.nrows]; omega) (by rw [h1.sh.ncols]; exact hc), C_ok_bind]
    cases hlb : N.bit l (c + t)
    · rw [if_neg (by simp), Ok.pure_iff]
      refine ⟨h1, h2, fun a ha1 ha2 => ?_⟩
      by_cases hal : a = l
      · rw [hal]; exact hlb
      · exact h3 a ha1 (by omega)
    · rw [if_pos rfl]
      refine (h1.add w hl (by omega) (show r + t < M0.nrows by omega) (by omega) hc (by omega) ?_ (fun _ _ _ => Nat.le_refl _)).mono ?_
      · intro b hb
        by_cases hbc : b < c
        · exact h1.left _ _ (by omega) (by omega) hbc
        · have := hrow (b - c) (by omega)
          rw [show c + (b - c) = b by omega, decide_eq_false (by omega)] at this
          rw [h2, this]
      · intro N' ⟨h1', hN'⟩
        refine ⟨h1', fun b => ?_, fun a ha1 ha2 => ?_⟩
        · rw [hN']; unfold addBit; rw [if_neg (by omega), h2]
        · rw [hN']
          unfold addBit
          by_cases hal : a = l
          · rw [if_pos ⟨hal, Nat.le_refl _, hc⟩, hlb, h2, hrow t (Nat.le_refl _)]; simp
          · rw [if_neg (by omega)]; exact h3 a ha1 (by omega)
  intro N ⟨h1, h2, h3⟩
  rw [Ok.pure_iff, Step.holds_stop]
  refine ⟨rfl, ⟨h1.sh, h1.eq, h1.out, h1.left, fun l hl l' hl' => ?_⟩, by omega⟩
  by_cases hlt : l = t
  · subst hlt
    show N.bit _ _ = _
    rw [h2, hrow l' (by omega), decide_eq_decide]
    exact eq_comm
  · by_cases hlt' : l' = t
    · subst hlt'
      show N.bit _ _ = _
      rw [h3 (r + l) (by omega) (by omega), decide_eq_false hlt]
    · exact h1.ident l (by omega) l' (by omega)

theorem gauss_full {M0 : Mzd} {r c k : Nat} (w : M0.Wf) (hr : r ≤ M0.nrows) (hc : c + k ≤ M0.ncols) (hk : k ≤ 64)
    (hz : ∀ a b, r ≤ a → a < M0.nrows → b < c → M0.bit a b = false) :
    Ok (gauss_submatrix_full M0 r c M0.nrows k) fun x => x.2 ≤ k ∧ GS M0 r c x.2 x.1 ∧ r + x.2 ≤ M0.nrows ∧
      (x.2 < k → ∀ a, r + x.2 ≤ a → a < M0.nrows → ∀ l ≤ x.2, x.1.bit a (c + l) = false) ∧ (x.2 = 0 → ∀ a b, x.1.bit a b = M0.bit a b) := by
  unfold gauss_submatrix_full
  refine Ok.bind (P := fun s => ∃ t ≤ k, s.2.2 = c + t ∧ GS M0 r c t s.1 ∧ r + t ≤ M0.nrows ∧
      (t < k → ∀ a, r + t ≤ a → a < M0.nrows → ∀ l ≤ t, s.1.bit a (c + l) = false) ∧ (t = 0 → ∀ a b, s.1.bit a b = M0.bit a b)) ?_ ?_
  · refine Ok.forBrk (fun j (s : Mzd × Nat × Nat) => s.2.2 = j ∧ s.2.1 = r + (j - c) ∧ GS M0 r c (j - c) s.1 ∧ r + (j - c) ≤ M0.nrows ∧
        (j - c = 0 → ∀ a b, s.1.bit a b = M0.bit a b))
      (fun s => ∃ t ≤ k, s.2.2 = c + t ∧ GS M0 r c t s.1 ∧ r + t ≤ M0.nrows ∧
        (t < k → ∀ a, r + t ≤ a → a < M0.nrows → ∀ l ≤ t, s.1.bit a (c + l) = false) ∧ (t = 0 → ∀ a b, s.1.bit a b = M0.bit a b)) (by omega) ?_ ?_ ?_ (fun s hs => hs)
    · refine ⟨rfl, by simp, ⟨Sh.refl _, RowEq.refl _ _ _, fun _ _ _ => rfl, hz, fun l hl => by omega⟩, by simpa using hr, fun _ _ _ => rfl⟩
    · intro j s hj1 hj2 ⟨e1, e2, hg, hrt, hsame⟩
      rw [e2]
      have := gaussCol_spec w hg hrt (by omega) (by omega)
      rw [show c + (j - c) = j by omega] at this
      refine Ok.bind this ?_
      rintro x (⟨e, hg', hlt⟩ | ⟨e, hg', hz', h0'⟩)
      · rw [e, if_pos rfl, Ok.pure_iff, Step.holds_next, show j + 1 - c = j - c + 1 by omega]
        exact ⟨rfl, rfl, hg', by omega, fun h => by omega⟩
      · rw [e, if_neg (by simp), Ok.pure_iff, Step.holds_stop]
        exact ⟨j - c, by omega, by simp only []; omega, hg', hrt, fun _ => hz', fun h a b => (h0' h a b).trans (hsame h a b)⟩
    · intro s ⟨e1, e2, hg, hrt, hsame⟩
      rw [show c + k - c = k by omega] at hg hrt hsame
      exact ⟨k, Nat.le_refl _, e1, hg, hrt, fun h => by omega, hsame⟩
  · intro s ⟨t, ht, e, hg, hrt, hz', hsame⟩
    rw [Ok.pure_iff, e, show c + t - c = t by omega]
    exact ⟨ht, hg, hrt, hz', hsame⟩

end WB.m4w
