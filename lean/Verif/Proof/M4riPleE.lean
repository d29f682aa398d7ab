import Verif.Proof.M4riPle

/-! # Proofs for the naive PLE factorisation -/
namespace WB.m4w

open WB.cmp (Mem Mem2)

/-- `L` and `E` of the first `s` steps, whose pivots are in the columns `q 0, …, q (s - 1)`, and the rest, at one place -/
def splitE (F : Nat → Nat → ZMod 2) (q : Nat → Nat) (s col a b : Nat) : ZMod 2 :=
  (∑ k ∈ Finset.range s, (if k ≤ a then F a (q k) else 0) * (if q k ≤ b then F k b else 0)) + if s ≤ a ∧ col ≤ b then F a b else 0

/-- The matrix after the next step -/
def nextE (F : Nat → Nat → ZMod 2) (s i j a b : Nat) : ZMod 2 :=
  if s < a ∧ j < b then F (Equiv.swap s i a) b + F (Equiv.swap s i a) j * F i b else F (Equiv.swap s i a) b

theorem splitE_next {F : Nat → Nat → ZMod 2} {q q' : Nat → Nat} {s col i j a b : Nat} (hs : q' s = j) (hs' : ∀ k < s, q' k = q k) (hi : s ≤ i) (hj : col ≤ j) (hq : ∀ k < s, q k < col) (h1 : F i j = 1)
    (h0 : s ≤ a → col ≤ b → b < j → F (Equiv.swap s i a) b = 0) :
    splitE (nextE F s i j) q' (s + 1) (j + 1) a b = splitE F q s col (Equiv.swap s i a) b := by
  unfold splitE
  rw [Finset.sum_range_succ, add_assoc]
  congr 1
  · refine Finset.sum_congr rfl fun k hk => ?_
    have hk := Finset.mem_range.1 hk
    have hqk := hq k hk
    have e1 : (k ≤ a) ↔ (k ≤ Equiv.swap s i a) := by
      have := swap_ge (a := a) hi
      by_cases h : s ≤ a
      · have := this.2 h; omega
      · rw [swap_low (by omega) (by omega)]
    rw [hs' k hk]
    have f1 : nextE F s i j a (q k) = F (Equiv.swap s i a) (q k) := by
      unfold nextE
      rw [if_neg (by omega)]
    have f2 : nextE F s i j k b = F k b := by
      unfold nextE
      rw [if_neg (by omega), swap_low (x := s) (y := i) (by omega) (by omega)]
    rw [f1, f2]
    congr 1
    exact if_congr e1 rfl rfl
  · rw [if_congr (and_congr_left' (swap_ge hi)) rfl rfl, hs]
    have f1 : nextE F s i j a j = F (Equiv.swap s i a) j := by
      unfold nextE
      rw [if_neg (by omega)]
    have f2 : nextE F s i j s b = F i b := by
      unfold nextE
      rw [if_neg (by omega), Equiv.swap_apply_left]
    rw [f1, f2]
    by_cases ha : s ≤ a
    · rw [if_pos ha]
      by_cases hb : j ≤ b
      · rw [if_pos hb, if_pos (show s ≤ a ∧ col ≤ b from ⟨ha, hj.trans hb⟩)]
        rcases Nat.eq_or_lt_of_le ha with rfl | ha'
        · rw [if_neg (show ¬ (s + 1 ≤ s ∧ j + 1 ≤ b) by omega), Equiv.swap_apply_left, h1, one_mul, add_zero]
        · rcases Nat.eq_or_lt_of_le hb with rfl | hb'
          · rw [if_neg (show ¬ (s + 1 ≤ a ∧ j + 1 ≤ j) by omega), h1, mul_one, add_zero]
          · rw [if_pos (show s + 1 ≤ a ∧ j + 1 ≤ b from ⟨ha', hb'⟩)]
            unfold nextE
            rw [if_pos ⟨ha', hb'⟩, add_comm (F _ b), ← add_assoc, add_self_two, zero_add]
      · rw [if_neg hb, mul_zero, zero_add, if_neg (show ¬ (s + 1 ≤ a ∧ j + 1 ≤ b) by omega)]
        by_cases hc : col ≤ b
        · rw [if_pos ⟨ha, hc⟩, h0 ha hc (by omega)]
        · rw [if_neg (fun h => hc h.2)]
    · rw [if_neg ha, if_neg (show ¬ (s ≤ a ∧ col ≤ b) from fun h => ha h.1), if_neg (show ¬ (s + 1 ≤ a ∧ j + 1 ≤ b) by omega), zero_mul, add_zero]

/-- Before the round that looks for the pivot of row `s` -/
structure PleInv (M : Mzd) (s col : Nat) (t : Ple) : Prop where
  sh : Sh M t.A
  pS : t.P.size = M.nrows
  qS : t.Q.size = M.ncols
  sm : s ≤ M.nrows
  sc : s ≤ col
  cn : col ≤ M.ncols
  p : ∀ i < s, i ≤ t.P.cell i ∧ t.P.cell i < M.nrows
  q : ∀ i < s, i ≤ t.Q.cell i ∧ t.Q.cell i < col
  inc : ∀ i j, i < j → j < s → t.Q.cell i < t.Q.cell j
  top : ∀ c, (∀ k < s, t.Q.cell k < c) → col ≤ c
  piv : ∀ k < s, t.A.bit k (t.Q.cell k) = true
  zero : ∀ a < M.nrows, ∀ c < col, (a < s → c < t.Q.cell a) → (∀ k < s, t.Q.cell k ≠ c) → t.A.bit a c = false
  split : ∀ a < M.nrows, ∀ b < M.ncols, bitF (M.bit (Walk t.P.cell (List.range s) a) b) = splitE (fun a b => bitF (t.A.bit a b)) t.Q.cell s col a b
  out : ∀ a b, M.ncols ≤ b → t.A.bit a b = M.bit a b

theorem splitE_congr {F G : Nat → Nat → ZMod 2} {q q' : Nat → Nat} {m n s col a b : Nat} (h : ∀ a < m, ∀ b < n, F a b = G a b) (hq : ∀ k < s, q k = q' k ∧ q k < n) (hm : s ≤ m) (ha : a < m) (hb : b < n) :
    splitE F q s col a b = splitE G q' s col a b := by
  unfold splitE
  rw [h a ha b hb]
  congr 1
  refine Finset.sum_congr rfl fun k hk => ?_
  have hk := Finset.mem_range.1 hk
  rw [h a ha (q k) (hq k hk).2, h k (by omega) b hb, (hq k hk).1]

theorem ple_loop {M : Mzd} (w : M.Wf) : ∀ (fuel s col : Nat) (t : Ple), PleInv M s col t → M.nrows < fuel + s →
    Ok (pleLoop fuel s col t) fun r => ∃ col', PleInv M r.2 col' r.1 ∧ ∀ a b, r.2 ≤ a → a < M.nrows → col' ≤ b → b < M.ncols → r.1.A.bit a b = false := by
  intro fuel
  induction fuel with
  | zero => intro s col t inv h; exact absurd inv.sm (by omega)
  | succ fuel ih =>
    intro s col t inv hf
    unfold pleLoop
    by_cases hs : s < t.A.nrows ∧ col < t.A.ncols
    · rw [if_pos hs, Ok.bind_iff]
      have wA := inv.sh.wf w
      refine (search_ok wA hs.1.le hs.2.le).mono fun r hr => ?_
      match r, hr with
      | none, hr =>
        rw [Ok.pure_iff]
        refine ⟨col, inv, ?_⟩
        unfold Found at hr
        rw [inv.sh.nrows, inv.sh.ncols] at hr
        exact hr
      | some (i, j), ⟨⟨hi1, hi2⟩, ⟨hj1, hj2⟩, hb, hz⟩ =>
        simp only []
        have hsc := inv.sc
        rw [mem_put_eq _ (by rw [inv.pS, ← inv.sh.nrows]; exact hs.1), C_ok_bind, mem_put_eq _ (by rw [inv.qS, ← inv.sh.ncols]; omega), C_ok_bind, Ok.bind_iff]
        refine (row_swap wA hs.1 hi2).mono fun A1 ⟨s1, h1⟩ => ?_
        rw [Ok.bind_iff]
        refine (clear_ok (col := j) (s1.wf wA) (by rw [s1.nrows]; exact hs.1)).mono fun A3 ⟨s3, h3⟩ => ?_
        have sh' := inv.sh.trans (s1.trans s3)
        rw [s1.nrows, s1.ncols, inv.sh.nrows, inv.sh.ncols] at h3
        rw [inv.sh.ncols] at h1 hj2
        rw [inv.sh.nrows, inv.sh.ncols] at hs
        rw [inv.sh.nrows] at hi2 hz
        have hsm := hs.1
        have g2 : ∀ a b, b < M.ncols → A1.bit a b = t.A.bit (Equiv.swap s i a) b := by
          intro a b hb'
          rw [h1, swap_bit, if_pos hb']
        have g3 : ∀ a < M.nrows, ∀ b < M.ncols, bitF (A3.bit a b) = nextE (fun a b => bitF (t.A.bit a b)) s i j a b := by
          intro a ha b hb'
          rw [h3]
          unfold nextE
          rw [g2 a b hb', g2 a j hj2, g2 s b hb', Equiv.swap_apply_left]
          by_cases hc : s < a ∧ j < b
          · rw [if_pos hc]
            show _ = bitF (t.A.bit (Equiv.swap s i a) b) + bitF (t.A.bit (Equiv.swap s i a) j) * bitF (t.A.bit i b)
            cases hd : t.A.bit (Equiv.swap s i a) j
            · rw [if_neg (by simp), bitF_false, zero_mul, add_zero]
            · rw [if_pos ⟨⟨hc.1, ha⟩, ⟨hc.2, hb'⟩, rfl⟩, bitF_xor', bitF_true, one_mul]
          · rw [if_neg hc, if_neg (fun h => hc ⟨h.1.1, h.2.1.1⟩)]
        have eP : ∀ v x, Walk (fun k => if k = s then v else x k) (List.range (s + 1)) = Walk x (List.range s) * Equiv.swap s v := by
          intro v x
          rw [List.range_succ, walk_append, if_pos rfl]
          rw [walk_congr (v' := x) fun i hi => if_neg (by have := List.mem_range.1 hi; omega)]
        refine ih (s + 1) (j + 1) _ ⟨sh', inv.pS, inv.qS, hsm, by omega, hj2, ?_, ?_, ?_, ?_, ?_, ?_, ?_, ?_⟩ (by omega)
        · intro k hk
          show k ≤ (if k = s then i else t.P.cell k) ∧ (if k = s then i else t.P.cell k) < M.nrows
          by_cases hks : k = s
          · rw [if_pos hks]; exact ⟨by omega, hi2⟩
          · rw [if_neg hks]; exact inv.p k (by omega)
        · intro k hk
          show k ≤ (if k = s then j else t.Q.cell k) ∧ (if k = s then j else t.Q.cell k) < j + 1
          by_cases hks : k = s
          · rw [if_pos hks]; exact ⟨by omega, by omega⟩
          · rw [if_neg hks]
            have := inv.q k (by omega)
            exact ⟨this.1, by omega⟩
        · intro k l hkl hl
          show (if k = s then j else t.Q.cell k) < (if l = s then j else t.Q.cell l)
          rw [if_neg (by omega)]
          by_cases hls : l = s
          · rw [if_pos hls]
            have := inv.q k (by omega)
            omega
          · rw [if_neg hls]; exact inv.inc k l hkl (by omega)
        · intro c hc
          have : (if s = s then j else t.Q.cell s) < c := hc s (by omega)
          rw [if_pos rfl] at this
          exact this
        · intro k hk
          show A3.bit k (if k = s then j else t.Q.cell k) = true
          by_cases hks : k = s
          · rw [if_pos hks, h3, if_neg (by omega), g2 k j hj2, hks, Equiv.swap_apply_left]; exact hb
          · have := inv.q k (by omega)
            rw [if_neg hks, h3, if_neg (by omega), g2 k _ (by omega), swap_low (by omega) (by omega)]
            exact inv.piv k (by omega)
        · intro a ha c hc h4 h5
          have h4 : a < s + 1 → c < (if a = s then j else t.Q.cell a) := h4
          have h5 : ∀ k < s + 1, (if k = s then j else t.Q.cell k) ≠ c := h5
          have hcj : c ≠ j := fun h => h5 s (by omega) (by rw [if_pos rfl, h])
          have hcj : c < j := by omega
          show A3.bit a c = false
          rw [h3, if_neg (by omega), g2 a c (by omega)]
          have hge := swap_ge (a := a) hi1
          by_cases hcc : c < col
          · refine inv.zero _ (swap_lt hsm hi2 ha) c hcc (fun h => ?_) fun k hk => ?_
            · have has : a < s := by
                by_contra h'
                have := hge.2 (by omega)
                omega
              rw [swap_low has (by omega)]
              have := h4 (by omega)
              rw [if_neg (by omega)] at this
              exact this
            · have := h5 k (by omega)
              rw [if_neg (by omega)] at this
              exact this
          · have has : s ≤ a := by
              by_contra h'
              have h6 := h4 (by omega)
              rw [if_neg (by omega)] at h6
              have := inv.q a (by omega)
              omega
            exact hz _ c (hge.2 has) (swap_lt hsm hi2 ha) (by omega) hcj
        · intro a ha b hb'
          show bitF (M.bit (Walk (fun k => if k = s then i else t.P.cell k) (List.range (s + 1)) a) b) = splitE (fun a b => bitF (A3.bit a b)) (fun k => if k = s then j else t.Q.cell k) (s + 1) (j + 1) a b
          have hq2 : ∀ k < s + 1, (fun k => if k = s then j else t.Q.cell k) k = (fun k => if k = s then j else t.Q.cell k) k ∧ (fun k => if k = s then j else t.Q.cell k) k < M.ncols := by
            intro k hk
            refine ⟨rfl, ?_⟩
            simp only []
            by_cases hks : k = s
            · rw [if_pos hks]; exact hj2
            · rw [if_neg hks]
              have := inv.q k (by omega)
              omega
          rw [eP, Equiv.Perm.mul_apply, inv.split _ (swap_lt hsm hi2 ha) _ hb', splitE_congr g3 hq2 hsm ha hb',
            splitE_next (F := fun a b => bitF (t.A.bit a b)) (q := t.Q.cell) (q' := fun k => if k = s then j else t.Q.cell k) (if_pos rfl) (fun k hk => if_neg (by omega)) hi1 hj1 (fun k hk => (inv.q k hk).2) (by rw [hb]; rfl) fun h6 h7 h8 => by rw [hz _ b ((swap_ge hi1).2 h6) (swap_lt hsm hi2 ha) h7 h8]; rfl]
        · intro a b hb'
          show A3.bit a b = _
          rw [h3, if_neg (by omega), h1, swap_bit, if_neg (by omega)]
          exact inv.out a b hb'
    · rw [if_neg hs, Ok.pure_iff]
      rw [inv.sh.ncols, inv.sh.nrows] at hs
      exact ⟨col, inv, fun a b h1 h2 h3 h4 => absurd (show s < M.nrows ∧ col < M.ncols from ⟨lt_of_le_of_lt h1 h2, by omega⟩) hs⟩

/-! ## The compression of `L` -/

/-- Row `a` after its first `κ` exchanges -/
def compBit (f : Nat → Nat → Bool) (q : Nat → Nat) (κ a b : Nat) : Bool := if b < κ then f a (q b) else if 0 < κ ∧ b ≤ q (κ - 1) then false else f a b

theorem comp_step {f : Nat → Nat → Bool} {q : Nat → Nat} {t a b : Nat} (ht : t ≤ q t) (hinc : 0 < t → q (t - 1) < q t) (hz : ∀ c < q t, (0 < t → q (t - 1) < c) → f a c = false) :
    compBit f q t a (Equiv.swap (q t) t b) = compBit f q (t + 1) a b := by
  unfold compBit
  rw [Nat.add_sub_cancel]
  by_cases h1 : b < t
  · rw [Equiv.swap_apply_of_ne_of_ne (by omega) (by omega), if_pos h1, if_pos (by omega)]
  by_cases h2 : b = t
  · subst h2
    rw [Equiv.swap_apply_right, if_neg (by omega), if_neg (fun h => by have := hinc h.1; omega), if_pos (by omega)]
  rw [if_neg (show ¬ b < t + 1 by omega)]
  by_cases h3 : b = q t
  · subst h3
    rw [Equiv.swap_apply_left, if_neg (by omega), if_pos (show 0 < t + 1 ∧ q t ≤ q t by omega)]
    by_cases h4 : 0 < t ∧ t ≤ q (t - 1)
    · rw [if_pos h4]
    · rw [if_neg h4]
      exact hz t (by omega) (by omega)
  rw [Equiv.swap_apply_of_ne_of_ne h3 h2, if_neg h1]
  by_cases h4 : 0 < t ∧ b ≤ q (t - 1)
  · have := hinc h4.1
    rw [if_pos h4, if_pos (by omega)]
  · rw [if_neg h4]
    by_cases h5 : b ≤ q t
    · rw [if_pos ⟨by omega, h5⟩]
      exact hz b (by omega) (by omega)
    · rw [if_neg (fun h => h5 h.2)]

theorem compress_ok {A : Mzd} {Q : Mem Nat} {r : Nat} (w : A.Wf) (hr : r ≤ A.nrows) (hQ : r ≤ Q.size) (hq : ∀ i < r, i ≤ Q.cell i ∧ Q.cell i < A.ncols) (hinc : ∀ t, 0 < t → t < r → Q.cell (t - 1) < Q.cell t)
    (hz : ∀ t < r, ∀ a, t ≤ a → a < A.nrows → ∀ c < Q.cell t, (0 < t → Q.cell (t - 1) < c) → A.bit a c = false) :
    Ok (compressL A Q r) fun D => Sh A D ∧ ∀ a b, D.bit a b = if a < A.nrows then compBit A.bit Q.cell (min (a + 1) r) a b else A.bit a b := by
  unfold compressL
  refine Ok.forUp (P := fun t D => Sh A D ∧ ∀ a b, D.bit a b = if a < A.nrows then compBit A.bit Q.cell (min (a + 1) t) a b else A.bit a b) (Nat.zero_le _) ⟨Sh.refl A, fun a b => ?_⟩ ?_ (fun D h => h)
  · have : compBit A.bit Q.cell (min (a + 1) 0) a b = A.bit a b := by
      unfold compBit
      rw [Nat.min_zero, if_neg (by omega), if_neg (by omega)]
    rw [this, ite_self]
  intro t D _ ht ⟨sh, hD⟩
  have wD := sh.wf w
  obtain ⟨q1, q2⟩ := hq t ht
  rw [Mem.get_eq (by omega), C_ok_bind]
  have h : Ok (mzd_col_swap_in_rows D (Q.cell t) t t D.nrows) fun E => Sh A E ∧ ∀ a b, E.bit a b = if a < A.nrows then compBit A.bit Q.cell (min (a + 1) (t + 1)) a b else A.bit a b := by
    refine (colSwap_spec wD (by rw [sh.ncols]; exact q2) (by rw [sh.ncols]; omega) (le_refl _)).mono fun E ⟨sE, hE⟩ => ⟨sh.trans sE, fun a b => ?_⟩
    rw [hE, sh.nrows]
    by_cases ha : a < A.nrows
    · rw [if_pos ha]
      by_cases hta : t ≤ a
      · rw [if_pos ⟨hta, ha⟩, hD, if_pos ha, Nat.min_eq_right (show t ≤ a + 1 by omega), Nat.min_eq_right (show t + 1 ≤ a + 1 by omega)]
        exact comp_step q1 (fun h => hinc t h ht) fun c h1 h2 => hz t ht a hta ha c h1 h2
      · rw [if_neg (fun h => hta h.1), hD, if_pos ha, Nat.min_eq_left (show a + 1 ≤ t by omega), Nat.min_eq_left (show a + 1 ≤ t + 1 by omega)]
    · rw [if_neg ha, if_neg (fun h => ha h.2), hD, if_neg ha]
  by_cases hlt : t < Q.cell t
  · rw [if_pos hlt]; exact h
  · rw [if_neg hlt]
    have he : mzd_col_swap_in_rows D (Q.cell t) t t D.nrows = pure D := by
      unfold mzd_col_swap_in_rows
      rw [if_pos (by omega)]
    rw [he] at h
    exact h

/-- What `_mzd_ple_naive` does. -/
structure PleOut (M : Mzd) (k : Nat) (t : Ple) : Prop where
  sh : Sh M t.A
  pS : t.P.size = M.nrows
  qS : t.Q.size = M.ncols
  km : k ≤ M.nrows
  kn : k ≤ M.ncols
  p : ∀ i < M.nrows, i ≤ t.P.cell i ∧ t.P.cell i < M.nrows
  q : ∀ i < M.ncols, i ≤ t.Q.cell i ∧ t.Q.cell i < M.ncols
  pf : ∀ i, k ≤ i → i < M.nrows → t.P.cell i = i
  qf : ∀ i, k ≤ i → i < M.ncols → t.Q.cell i = i
  inc : ∀ i j, i < j → j < k → t.Q.cell i < t.Q.cell j
  piv : ∀ i < k, t.A.bit i i = true
  gap : ∀ i < k, ∀ b, i < b → b ≤ t.Q.cell i → t.A.bit i b = false
  rest : ∀ a b, k ≤ a → a < M.nrows → k ≤ b → b < M.ncols → t.A.bit a b = false
  split : ∀ a < M.nrows, ∀ b < M.ncols, bitF (M.bit (Walk t.P.cell (List.range k) a) b) =
    ∑ i ∈ Finset.range k, (if i < a then bitF (t.A.bit a i) else if i = a then 1 else 0) * (if t.Q.cell i < b then bitF (t.A.bit i b) else if t.Q.cell i = b then 1 else 0)
  out : ∀ a b, M.ncols ≤ b → t.A.bit a b = M.bit a b

theorem ple_naive_ok {M : Mzd} {P Q : Mem Nat} (w : M.Wf) (hP : P.size = M.nrows) (hQ : Q.size = M.ncols) : Ok (_mzd_ple_naive M P Q) fun r => PleOut M r.2 r.1 := by
  unfold _mzd_ple_naive
  rw [Ok.bind_iff]
  refine (ple_loop w (M.nrows + 1) 0 0 ⟨M, P, Q⟩ ⟨Sh.refl M, hP, hQ, Nat.zero_le _, Nat.zero_le _, Nat.zero_le _, fun i hi => absurd hi (by omega), fun i hi => absurd hi (by omega),
    fun i j _ hi => absurd hi (by omega), fun c _ => Nat.zero_le _, fun i hi => absurd hi (by omega), fun _ _ c hc => absurd hc (by omega), ?_, fun _ _ _ => rfl⟩ (by omega)).mono ?_
  · intro a _ b _
    unfold splitE
    rw [Finset.sum_range_zero, if_pos ⟨Nat.zero_le _, Nat.zero_le _⟩, zero_add]
    rfl
  · rintro ⟨t, k⟩ ⟨col, inv, hz⟩
    simp only [] at inv hz ⊢
    have hkn : k ≤ M.ncols := inv.sc.trans inv.cn
    rw [inv.sh.nrows, inv.sh.ncols, Ok.bind_iff]
    refine (fill_ok inv.sm inv.pS.ge).mono fun P' ⟨hP1, hP2⟩ => ?_
    rw [Ok.bind_iff]
    refine (fill_ok hkn inv.qS.ge).mono fun Q' ⟨hQ1, hQ2⟩ => ?_
    have eP : ∀ i < k, P'.cell i = t.P.cell i := fun i hi => by rw [hP2, if_neg (by omega)]
    have eQ : ∀ i < k, Q'.cell i = t.Q.cell i := fun i hi => by rw [hQ2, if_neg (by omega)]
    have hq : ∀ i < k, i ≤ Q'.cell i ∧ Q'.cell i < col := fun i hi => by rw [eQ i hi]; exact inv.q i hi
    have hinc : ∀ i j, i < j → j < k → Q'.cell i < Q'.cell j := fun i j h1 h2 => by rw [eQ i (by omega), eQ j h2]; exact inv.inc i j h1 h2
    have hle : ∀ i j, i ≤ j → j < k → Q'.cell i ≤ Q'.cell j := fun i j h1 h2 => by
      rcases Nat.eq_or_lt_of_le h1 with rfl | h
      · exact le_refl _
      · exact (hinc i j h h2).le
    have hcn := inv.cn
    have hkm := inv.sm
    have nz : ∀ a < M.nrows, ∀ c < col, (a < k → c < Q'.cell a) → (∀ i < k, Q'.cell i ≠ c) → t.A.bit a c = false := fun a ha c hc h1 h2 =>
      inv.zero a ha c hc (fun h => by rw [← eQ a h]; exact h1 h) fun i hi => by rw [← eQ i hi]; exact h2 i hi
    rw [Ok.bind_iff]
    refine (compress_ok (r := k) (inv.sh.wf w) (by rw [inv.sh.nrows]; exact hkm) (by rw [hQ1, inv.qS]; exact hkn) (fun i hi => ⟨(hq i hi).1, by rw [inv.sh.ncols]; have := (hq i hi).2; omega⟩)
      (fun t h1 h2 => hinc _ _ (by omega) h2) ?_).mono fun D ⟨sD, hD⟩ => ?_
    · intro u hu a hua ha c hc h1
      rw [inv.sh.nrows] at ha
      have := (hq u hu).2
      refine nz a ha c (by omega) (fun h => lt_of_lt_of_le hc (hle u a hua h)) fun i hi => ?_
      by_cases hiu : i < u
      · have := hle i (u - 1) (by omega) (by omega)
        have := h1 (by omega)
        omega
      · have := hle u i (by omega) hi
        omega
    · rw [Ok.pure_iff]
      rw [inv.sh.nrows] at hD
      -- the entries afterwards
      have dL : ∀ a < M.nrows, ∀ i < k, i ≤ a → D.bit a i = t.A.bit a (Q'.cell i) := fun a ha i hi hia => by
        rw [hD, if_pos ha]; unfold compBit; rw [if_pos (by omega)]
      have dE : ∀ i < k, ∀ b, Q'.cell i < b → D.bit i b = t.A.bit i b := fun i hi b hb => by
        have := (hq i hi).1
        rw [hD, if_pos (by omega), Nat.min_eq_left (by omega)]; unfold compBit
        rw [if_neg (by omega), if_neg (by rw [Nat.add_sub_cancel]; omega)]
      have piv : ∀ i < k, t.A.bit i (Q'.cell i) = true := fun i hi => by rw [eQ i hi]; exact inv.piv i hi
      have dG : ∀ i < k, ∀ b, i < b → b ≤ Q'.cell i → D.bit i b = false := fun i hi b h1 h2 => by
        rw [hD, if_pos (by omega), Nat.min_eq_left (by omega)]; unfold compBit
        rw [if_neg (by omega), if_pos (by rw [Nat.add_sub_cancel]; omega)]
      refine ⟨inv.sh.trans sD, hP1.trans inv.pS, hQ1.trans inv.qS, hkm, hkn, fun i hi => ?_, fun i hi => ?_, fun i h1 h2 => ?_, fun i h1 h2 => ?_, hinc, fun i hi => ?_, dG, ?_, ?_, ?_⟩
      · show i ≤ P'.cell i ∧ P'.cell i < M.nrows
        by_cases h : i < k
        · rw [eP i h]; exact inv.p i h
        · rw [hP2, if_pos (by omega)]; exact ⟨le_refl _, hi⟩
      · show i ≤ Q'.cell i ∧ Q'.cell i < M.ncols
        by_cases h : i < k
        · have := hq i h; omega
        · rw [hQ2, if_pos (by omega)]; exact ⟨le_refl _, hi⟩
      · show P'.cell i = i
        rw [hP2, if_pos ⟨h1, h2⟩]
      · show Q'.cell i = i
        rw [hQ2, if_pos ⟨h1, h2⟩]
      · rw [dL i (by omega) i hi (le_refl _)]; exact piv i hi
      · intro a b h1 h2 h3 h4
        have h1 : k ≤ a := h1
        have h3 : k ≤ b := h3
        show D.bit a b = false
        rw [hD, if_pos h2, Nat.min_eq_right (by omega)]; unfold compBit
        rw [if_neg (by omega)]
        by_cases h5 : 0 < k ∧ b ≤ Q'.cell (k - 1)
        · rw [if_pos h5]
        · rw [if_neg h5]
          refine hz a b h1 h2 (inv.top b fun i hi => ?_) h4
          rw [← eQ i hi]
          have := hle i (k - 1) (by omega) (by omega)
          omega
      · intro a ha b hb
        show bitF (M.bit (Walk P'.cell (List.range k) a) b) = ∑ i ∈ Finset.range k, (if i < a then bitF (D.bit a i) else if i = a then 1 else 0) * (if Q'.cell i < b then bitF (D.bit i b) else if Q'.cell i = b then 1 else 0)
        rw [walk_congr (v := P'.cell) (v' := t.P.cell) fun i hi => eP i (List.mem_range.1 hi), inv.split a ha b hb]
        unfold splitE
        have e2 : (if k ≤ a ∧ col ≤ b then bitF (t.A.bit a b) else 0) = 0 := by
          by_cases h : k ≤ a ∧ col ≤ b
          · rw [if_pos h, hz a b h.1 ha h.2 hb]; rfl
          · rw [if_neg h]
        rw [e2, add_zero]
        refine Finset.sum_congr rfl fun i hi => ?_
        have hi := Finset.mem_range.1 hi
        rw [← eQ i hi]
        congr 1
        · rcases Nat.lt_trichotomy i a with h | h | h
          · rw [if_pos h.le, if_pos h, dL a ha i hi h.le]
          · rw [if_pos h.le, if_neg (by omega), if_pos h, ← h]
            show bitF (t.A.bit i (Q'.cell i)) = 1
            rw [piv i hi]; rfl
          · rw [if_neg (by omega), if_neg (by omega), if_neg (by omega)]
        · rcases Nat.lt_trichotomy (Q'.cell i) b with h | h | h
          · rw [if_pos h.le, if_pos h, dE i hi b h]
          · rw [if_pos h.le, if_neg (by omega), if_pos h, ← h]
            show bitF (t.A.bit i (Q'.cell i)) = 1
            rw [piv i hi]; rfl
          · rw [if_neg (by omega), if_neg (by omega), if_neg (by omega)]
      · intro a b hb
        have hb : M.ncols ≤ b := hb
        show D.bit a b = M.bit a b
        rw [hD]
        by_cases ha : a < M.nrows
        · rw [if_pos ha]; unfold compBit
          rw [if_neg (by omega), if_neg ?_, inv.out a b hb]
          rintro ⟨h1, h2⟩
          have := hq (min (a + 1) k - 1) (by omega)
          omega
        · rw [if_neg ha, inv.out a b hb]

/-- After the exchanges the column of a pivot is where it belongs. -/
theorem walk_pivot {v : Nat → Nat} {b : Nat} : ∀ n, b < n → (∀ i < n, i ≤ v i) → (∀ i < b, v i < v b) → Walk v (List.range n) b = v b := by
  intro n
  induction n with
  | zero => intro h; exact absurd h (by omega)
  | succ n ih =>
    intro h hle hinc
    rw [List.range_succ, walk_append, Equiv.Perm.mul_apply]
    by_cases hb : b = n
    · subst hb
      rw [Equiv.swap_apply_left]
      have fix : ∀ l : List Nat, (∀ i ∈ l, i < b) → Walk v l (v b) = v b := by
        intro l
        induction l with
        | nil => intro _; rfl
        | cons i l ih' =>
          intro hl
          have hi : i < b := hl i (by simp)
          have h1 := hle i (by omega)
          have h2 := hinc i hi
          have h3 := hle b (by omega)
          rw [walk_cons, Equiv.Perm.mul_apply, ih' fun j hj => hl j (List.mem_cons_of_mem _ hj), Equiv.swap_apply_of_ne_of_ne (by omega) (by omega)]
      exact fix _ fun i hi => List.mem_range.1 hi
    · have := hle n (by omega)
      rw [Equiv.swap_apply_of_ne_of_ne hb (by omega)]
      exact ih (by omega) (fun i hi => hle i (by omega)) hinc

end WB.m4w
