import Mathlib.Algebra.BigOperators.Intervals
import Mathlib.Tactic.Ring
import Mathlib.Data.ZMod.Basic
import Verif.Model.M4riPle
import Verif.Proof.M4riPerm

/-! # Proofs for the naive PLUQ factorisation -/
namespace WB.m4w

open WB.cmp (Mem Mem2)

/-! ## The steps -/

/-- What the search finds. -/
def Found (A : Mzd) (row col : Nat) : Option (Nat × Nat) → Prop
  | some (i, j) => (row ≤ i ∧ i < A.nrows) ∧ (col ≤ j ∧ j < A.ncols) ∧ A.bit i j = true ∧ ∀ a b, row ≤ a → a < A.nrows → col ≤ b → b < j → A.bit a b = false
  | none => ∀ a b, row ≤ a → a < A.nrows → col ≤ b → b < A.ncols → A.bit a b = false

theorem search_ok {A : Mzd} (w : A.Wf) {row col : Nat} (hr : row ≤ A.nrows) (hc : col ≤ A.ncols) : Ok (searchPivot A row col) (Found A row col) := by
  unfold searchPivot
  refine Ok.forUp (P := fun j r => match r with
    | some (p, q) => Found A row col (some (p, q))
    | none => ∀ a b, row ≤ a → a < A.nrows → col ≤ b → b < j → A.bit a b = false) hc (fun a b _ _ h1 h2 => absurd h2 (by omega)) ?_ ?_
  · intro j r h1 h2 h3
    match r, h3 with
    | some (p, q), h3 => rw [Ok.pure_iff]; exact h3
    | none, h3 =>
      refine Ok.forUp (P := fun i r => match r with
        | some (p, q) => Found A row col (some (p, q))
        | none => ∀ a, row ≤ a → a < i → A.bit a j = false) hr (fun a h4 h5 => absurd h5 (by omega)) ?_ ?_
      · intro i r h4 h5 h6
        match r, h6 with
        | some (p, q), h6 => rw [Ok.pure_iff]; exact h6
        | none, h6 =>
          simp only []
          rw [read_bit w h5 h2, C_ok_bind]
          cases hb : A.bit i j
          · rw [if_neg (by simp), Ok.pure_iff]
            intro a h7 h8
            rcases Nat.lt_succ_iff_lt_or_eq.1 h8 with h9 | rfl
            · exact h6 a h7 h9
            · exact hb
          · rw [if_pos rfl, Ok.pure_iff]
            exact ⟨⟨h4, h5⟩, ⟨h1, h2⟩, hb, h3⟩
      · intro r h4
        match r, h4 with
        | some (p, q), h4 => exact h4
        | none, h4 =>
          intro a b h5 h6 h7 h8
          rcases Nat.lt_succ_iff_lt_or_eq.1 h8 with h9 | rfl
          · exact h3 a b h5 h6 h7 h9
          · exact h4 a h5 h6
  · intro r h
    match r, h with
    | some (p, q), h => exact h
    | none, h => exact h

theorem clear_ok {A : Mzd} (w : A.Wf) {row col : Nat} (hr : row < A.nrows) :
    Ok (clearBelow A row col) fun D => Sh A D ∧ ∀ a b, D.bit a b = if (row < a ∧ a < A.nrows) ∧ (col < b ∧ b < A.ncols) ∧ A.bit a col = true then A.bit a b ^^ A.bit row b else A.bit a b := by
  unfold clearBelow
  by_cases hc : col + 1 < A.ncols
  · rw [if_pos hc]
    refine Ok.forUp (P := fun l D => Sh A D ∧ ∀ a b, D.bit a b = if (row < a ∧ a < l) ∧ (col < b ∧ b < A.ncols) ∧ A.bit a col = true then A.bit a b ^^ A.bit row b else A.bit a b) hr
      ⟨Sh.refl A, fun a b => by rw [if_neg (by omega)]⟩ ?_ (fun D h => h)
    intro l D h1 h2 ⟨sh, hD⟩
    rw [read_bit (sh.wf w) (by rw [sh.nrows]; exact h2) (by rw [sh.ncols]; omega), C_ok_bind, show D.bit l col = A.bit l col by rw [hD, if_neg (by omega)]]
    cases hb : A.bit l col
    · rw [if_neg (by simp), Ok.pure_iff]
      refine ⟨sh, fun a b => ?_⟩
      rw [hD]
      by_cases ha : a = l
      · subst ha; rw [hb, if_neg (by simp), if_neg (by simp)]
      · exact if_congr (by constructor <;> rintro ⟨⟨h3, h4⟩, h5⟩ <;> exact ⟨⟨h3, by omega⟩, h5⟩) rfl rfl
    · rw [if_pos rfl]
      refine (row_add (sh.wf w) (by rw [sh.nrows]; exact h2) (by rw [sh.nrows]; exact hr) (by rw [sh.ncols]; exact hc) (by omega)).mono fun E ⟨sE, hE⟩ => ⟨sh.trans sE, fun a b => ?_⟩
      rw [hE]
      unfold addBit
      rw [sh.ncols]
      by_cases ha : a = l
      · subst ha
        by_cases hb' : col + 1 ≤ b ∧ b < A.ncols
        · rw [if_pos ⟨rfl, hb'⟩, if_pos ⟨by omega, by omega, hb⟩, hD, hD, if_neg (by omega), if_neg (by omega)]
        · rw [if_neg (fun h => hb' h.2), if_neg (fun h => hb' (by omega)), hD, if_neg (by omega)]
      · rw [if_neg (fun h => ha h.1), hD]
        exact if_congr (by constructor <;> rintro ⟨⟨h3, h4⟩, h5⟩ <;> exact ⟨⟨h3, by omega⟩, h5⟩) rfl rfl
  · rw [if_neg hc, Ok.pure_iff]
    exact ⟨Sh.refl A, fun a b => by rw [if_neg (by omega)]⟩

theorem fill_ok {V : Mem Nat} {lo hi : Nat} (hl : lo ≤ hi) (h : hi ≤ V.size) :
    Ok (fillRest V lo hi) fun W => W.size = V.size ∧ ∀ i, W.cell i = if lo ≤ i ∧ i < hi then i else V.cell i := by
  unfold fillRest
  refine Ok.forUp (P := fun k W => W.size = V.size ∧ ∀ i, W.cell i = if lo ≤ i ∧ i < k then i else V.cell i) hl ⟨rfl, fun i => by rw [if_neg (by omega)]⟩ ?_ (fun D h => h)
  intro k W h1 h2 ⟨h3, h4⟩
  rw [mem_put_eq _ (by omega), Ok.ok_iff]
  refine ⟨h3, fun i => ?_⟩
  show (if i = k then k else W.cell i) = _
  rw [h4]
  by_cases hi : i = k
  · rw [if_pos hi, if_pos (by omega), hi]
  · rw [if_neg hi]
    exact if_congr (by omega) rfl rfl

theorem col_swap_ok {A : Mzd} (w : A.Wf) (h0 : 0 < A.nrows) {x y : Nat} (hx : x < A.ncols) (hy : y < A.ncols) :
    Ok (mzd_col_swap A x y) fun D => Sh A D ∧ ∀ a j, D.bit a j = if a < A.nrows then A.bit a (Equiv.swap x y j) else A.bit a j := by
  have h : mzd_col_swap A x y = mzd_col_swap_in_rows A x y 0 A.nrows := by
    unfold mzd_col_swap mzd_col_swap_in_rows
    by_cases hxy : x = y
    · rw [if_pos hxy, if_pos hxy]
    · rw [if_neg hxy, if_neg hxy, if_neg (by omega)]
  rw [h]
  exact (colSwap_spec w hx hy (Nat.le_refl _)).mono fun D ⟨h1, h2⟩ => ⟨h1, fun a j => by rw [h2]; exact if_congr (by omega) rfl rfl⟩

theorem walk_congr {v v' : Nat → Nat} {l : List Nat} (h : ∀ i ∈ l, v i = v' i) : Walk v l = Walk v' l := by
  unfold Walk
  rw [List.map_congr_left fun i hi => by rw [h i hi]]

theorem swap_lt {x y n j : Nat} (hx : x < n) (hy : y < n) (hj : j < n) : Equiv.swap x y j < n := by
  rw [Equiv.swap_apply_def]
  split
  · exact hy
  · split
    · exact hx
    · exact hj

theorem swap_low {x y k : Nat} (hx : k < x) (hy : k < y) : Equiv.swap x y k = k := Equiv.swap_apply_of_ne_of_ne (by omega) (by omega)

theorem swap_ge {s i a : Nat} (hi : s ≤ i) : s ≤ Equiv.swap s i a ↔ s ≤ a := by
  rw [Equiv.swap_apply_def]
  split
  · omega
  · split <;> omega

/-! ## The algebra -/

/-- `L` and `U` of the first `s` steps and the rest, at one place -/
def splitAt (F : Nat → Nat → ZMod 2) (s a b : Nat) : ZMod 2 :=
  (∑ k ∈ Finset.range s, (if k ≤ a then F a k else 0) * (if k ≤ b then F k b else 0)) + if s ≤ a ∧ s ≤ b then F a b else 0

/-- The matrix after the next step -/
def nextF (F : Nat → Nat → ZMod 2) (s i j a b : Nat) : ZMod 2 :=
  if s < a ∧ s < b then F (Equiv.swap s i a) (Equiv.swap s j b) + F (Equiv.swap s i a) j * F i (Equiv.swap s j b) else F (Equiv.swap s i a) (Equiv.swap s j b)

theorem add_self_two (x : ZMod 2) : x + x = 0 := by revert x; decide

theorem split_next {F : Nat → Nat → ZMod 2} {s i j : Nat} (hi : s ≤ i) (hj : s ≤ j) (h1 : F i j = 1) (a b : Nat) :
    splitAt (nextF F s i j) (s + 1) a b = splitAt F s (Equiv.swap s i a) (Equiv.swap s j b) := by
  unfold splitAt
  rw [Finset.sum_range_succ, add_assoc]
  congr 1
  · refine Finset.sum_congr rfl fun k hk => ?_
    have hk := Finset.mem_range.1 hk
    have e1 : (k ≤ a) ↔ (k ≤ Equiv.swap s i a) := by
      have := swap_ge (a := a) hi
      by_cases h : s ≤ a
      · have := this.2 h; omega
      · rw [swap_low (by omega) (by omega)]
    have e2 : (k ≤ b) ↔ (k ≤ Equiv.swap s j b) := by
      have := swap_ge (a := b) hj
      by_cases h : s ≤ b
      · have := this.2 h; omega
      · rw [swap_low (by omega) (by omega)]
    have f1 : nextF F s i j a k = F (Equiv.swap s i a) k := by
      unfold nextF
      rw [if_neg (by omega), swap_low (x := s) (y := j) (by omega) (by omega)]
    have f2 : nextF F s i j k b = F k (Equiv.swap s j b) := by
      unfold nextF
      rw [if_neg (by omega), swap_low (x := s) (y := i) (by omega) (by omega)]
    rw [f1, f2]
    congr 1
    · exact if_congr e1 rfl rfl
    · exact if_congr e2 rfl rfl
  · rw [if_congr (and_congr (swap_ge hi) (swap_ge hj)) rfl rfl]
    have f1 : nextF F s i j a s = F (Equiv.swap s i a) j := by
      unfold nextF
      rw [if_neg (by omega), Equiv.swap_apply_left]
    have f2 : nextF F s i j s b = F i (Equiv.swap s j b) := by
      unfold nextF
      rw [if_neg (by omega), Equiv.swap_apply_left]
    rw [f1, f2]
    by_cases ha : s ≤ a
    · by_cases hb : s ≤ b
      · rw [if_pos ha, if_pos hb, if_pos (show s ≤ a ∧ s ≤ b from ⟨ha, hb⟩)]
        rcases Nat.eq_or_lt_of_le ha with rfl | ha'
        · rw [if_neg (by omega), Equiv.swap_apply_left, h1, one_mul, add_zero]
        · rcases Nat.eq_or_lt_of_le hb with rfl | hb'
          · rw [if_neg (by omega), Equiv.swap_apply_left, h1, mul_one, add_zero]
          · rw [if_pos ⟨ha', hb'⟩]
            unfold nextF
            rw [if_pos ⟨ha', hb'⟩, add_comm (F _ _), ← add_assoc, add_self_two, zero_add]
      · rw [if_neg hb, if_neg (show ¬ (s ≤ a ∧ s ≤ b) from fun h => hb h.2), if_neg (show ¬ (s + 1 ≤ a ∧ s + 1 ≤ b) by omega), mul_zero, add_zero]
    · rw [if_neg ha, if_neg (show ¬ (s ≤ a ∧ s ≤ b) from fun h => ha h.1), if_neg (show ¬ (s + 1 ≤ a ∧ s + 1 ≤ b) by omega), zero_mul, add_zero]

theorem bitF_true : bitF true = 1 := rfl
theorem bitF_false : bitF false = 0 := rfl
theorem bitF_xor' (x y : Bool) : bitF (x ^^ y) = bitF x + bitF y := by revert x y; decide

/-! ## PLUQ -/

/-- Before round `s` -/
structure PluqInv (M : Mzd) (s : Nat) (t : Ple) : Prop where
  sh : Sh M t.A
  pS : t.P.size = M.nrows
  qS : t.Q.size = M.ncols
  sm : s ≤ M.nrows
  sn : s ≤ M.ncols
  p : ∀ i < s, i ≤ t.P.cell i ∧ t.P.cell i < M.nrows
  q : ∀ i < s, i ≤ t.Q.cell i ∧ t.Q.cell i < M.ncols
  piv : ∀ k < s, t.A.bit k k = true
  split : ∀ a < M.nrows, ∀ b < M.ncols, bitF (M.bit (Walk t.P.cell (List.range s) a) (Walk t.Q.cell (List.range s) b)) = splitAt (fun a b => bitF (t.A.bit a b)) s a b
  out : ∀ a b, M.ncols ≤ b → t.A.bit a b = M.bit a b

theorem split_congr {F G : Nat → Nat → ZMod 2} {m n s a b : Nat} (h : ∀ a < m, ∀ b < n, F a b = G a b) (hm : s ≤ m) (hn : s ≤ n) (ha : a < m) (hb : b < n) : splitAt F s a b = splitAt G s a b := by
  unfold splitAt
  rw [h a ha b hb]
  congr 1
  refine Finset.sum_congr rfl fun k hk => ?_
  have hk := Finset.mem_range.1 hk
  rw [h a ha k (by omega), h k (by omega) b hb]

theorem pluq_loop {M : Mzd} (w : M.Wf) : ∀ (fuel s : Nat) (t : Ple), PluqInv M s t → M.ncols < fuel + s →
    Ok (pluqLoop fuel s t) fun r => PluqInv M r.2 r.1 ∧ ∀ a b, r.2 ≤ a → a < M.nrows → r.2 ≤ b → b < M.ncols → r.1.A.bit a b = false := by
  intro fuel
  induction fuel with
  | zero => intro s t inv h; exact absurd inv.sn (by omega)
  | succ fuel ih =>
    intro s t inv hf
    unfold pluqLoop
    by_cases hs : s < t.A.ncols
    · rw [if_pos hs, Ok.bind_iff]
      have wA := inv.sh.wf w
      refine (search_ok wA (by rw [inv.sh.nrows]; exact inv.sm) hs.le).mono fun r hr => ?_
      match r, hr with
      | none, hr =>
        rw [Ok.pure_iff]
        refine ⟨inv, ?_⟩
        unfold Found at hr
        rw [inv.sh.nrows, inv.sh.ncols] at hr
        exact hr
      | some (i, j), ⟨⟨hi1, hi2⟩, ⟨hj1, hj2⟩, hb, _⟩ =>
        simp only []
        rw [inv.sh.ncols] at hs
        have hsm : s < t.A.nrows := by omega
        rw [mem_put_eq _ (by rw [inv.pS, ← inv.sh.nrows]; exact hsm), C_ok_bind, mem_put_eq _ (by rw [inv.qS]; exact hs), C_ok_bind, Ok.bind_iff]
        refine (row_swap wA hsm hi2).mono fun A1 ⟨s1, h1⟩ => ?_
        rw [Ok.bind_iff]
        refine (col_swap_ok (s1.wf wA) (by rw [s1.nrows]; omega) (by rw [s1.ncols, inv.sh.ncols]; exact hs) (by rw [s1.ncols]; exact hj2)).mono fun A2 ⟨s2, h2⟩ => ?_
        rw [Ok.bind_iff]
        refine (clear_ok (col := s) (s2.wf (s1.wf wA)) (by rw [s2.nrows, s1.nrows]; exact hsm)).mono fun A3 ⟨s3, h3⟩ => ?_
        have sh' := inv.sh.trans (s1.trans (s2.trans s3))
        rw [s2.nrows, s1.nrows, s2.ncols, s1.ncols, inv.sh.nrows, inv.sh.ncols] at h3
        rw [s1.nrows, inv.sh.nrows] at h2
        rw [inv.sh.ncols] at h1 hj2
        rw [inv.sh.nrows] at hi2 hsm
        -- the matrix before the rows are cleared
        have g2 : ∀ a < M.nrows, ∀ b < M.ncols, A2.bit a b = t.A.bit (Equiv.swap s i a) (Equiv.swap s j b) := by
          intro a ha b hb'
          rw [h2, if_pos ha, h1, swap_bit, if_pos (swap_lt hs hj2 hb')]
        have g3 : ∀ a < M.nrows, ∀ b < M.ncols, bitF (A3.bit a b) = nextF (fun a b => bitF (t.A.bit a b)) s i j a b := by
          intro a ha b hb'
          rw [h3]
          unfold nextF
          rw [g2 a ha b hb', g2 a ha s hs, g2 s hsm b hb', Equiv.swap_apply_left, Equiv.swap_apply_left]
          by_cases hc : s < a ∧ s < b
          · rw [if_pos hc]
            show _ = bitF (t.A.bit (Equiv.swap s i a) (Equiv.swap s j b)) + bitF (t.A.bit (Equiv.swap s i a) j) * bitF (t.A.bit i (Equiv.swap s j b))
            cases hd : t.A.bit (Equiv.swap s i a) j
            · rw [if_neg (by simp), bitF_false, zero_mul, add_zero]
            · rw [if_pos ⟨⟨hc.1, ha⟩, ⟨hc.2, hb'⟩, rfl⟩, bitF_xor', bitF_true, one_mul]
          · rw [if_neg hc, if_neg (fun h => hc ⟨h.1.1, h.2.1.1⟩)]
        have piv' : ∀ k ≤ s, A3.bit k k = true := by
          intro k hk
          rw [h3, if_neg (by omega), g2 k (by omega) k (by omega)]
          rcases Nat.eq_or_lt_of_le hk with rfl | hk'
          · rw [Equiv.swap_apply_left, Equiv.swap_apply_left]; exact hb
          · rw [swap_low hk' (by omega), swap_low hk' (by omega)]; exact inv.piv k hk'
        have eP : ∀ v x, Walk (fun k => if k = s then v else x k) (List.range (s + 1)) = Walk x (List.range s) * Equiv.swap s v := by
          intro v x
          rw [List.range_succ, walk_append, if_pos rfl]
          rw [walk_congr (v' := x) fun i hi => if_neg (by have := List.mem_range.1 hi; omega)]
        refine ih (s + 1) _ ⟨sh', inv.pS, inv.qS, hsm, hs, ?_, ?_, fun k hk => piv' k (by omega), ?_, ?_⟩ (by omega)
        · intro k hk
          show k ≤ (if k = s then i else t.P.cell k) ∧ (if k = s then i else t.P.cell k) < M.nrows
          by_cases hks : k = s
          · rw [if_pos hks]; exact ⟨by omega, hi2⟩
          · rw [if_neg hks]; exact inv.p k (by omega)
        · intro k hk
          show k ≤ (if k = s then j else t.Q.cell k) ∧ (if k = s then j else t.Q.cell k) < M.ncols
          by_cases hks : k = s
          · rw [if_pos hks]; exact ⟨by omega, hj2⟩
          · rw [if_neg hks]; exact inv.q k (by omega)
        · intro a ha b hb'
          show bitF (M.bit (Walk (fun k => if k = s then i else t.P.cell k) (List.range (s + 1)) a) (Walk (fun k => if k = s then j else t.Q.cell k) (List.range (s + 1)) b)) = _
          rw [eP, eP, Equiv.Perm.mul_apply, Equiv.Perm.mul_apply, inv.split _ (swap_lt hsm hi2 ha) _ (swap_lt hs hj2 hb'), split_congr g3 hsm hs ha hb', split_next hi1 hj1 (by rw [hb]; rfl)]
        · intro a b hb'
          rw [h3, if_neg (by omega), h2, Equiv.swap_apply_of_ne_of_ne (by omega) (by omega), ite_self, h1, swap_bit, if_neg (by omega)]
          exact inv.out a b hb'
    · rw [if_neg hs, Ok.pure_iff]
      rw [inv.sh.ncols] at hs
      exact ⟨inv, fun a b h1 h2 h3 h4 => absurd h4 (by show ¬ b < M.ncols; have : s ≤ b := h3; omega)⟩

/-- What `_mzd_pluq_naive` does. -/
structure PluqOut (M : Mzd) (k : Nat) (t : Ple) : Prop extends PluqInv M k t where
  rest : ∀ a b, k ≤ a → a < M.nrows → k ≤ b → b < M.ncols → t.A.bit a b = false
  pf : ∀ i, k ≤ i → i < M.nrows → t.P.cell i = i
  qf : ∀ i, k ≤ i → i < M.ncols → t.Q.cell i = i

theorem pluq_naive_ok {M : Mzd} {P Q : Mem Nat} (w : M.Wf) (hP : P.size = M.nrows) (hQ : Q.size = M.ncols) : Ok (_mzd_pluq_naive M P Q) fun r => PluqOut M r.2 r.1 := by
  unfold _mzd_pluq_naive
  rw [Ok.bind_iff]
  refine (pluq_loop w (M.ncols + 1) 0 ⟨M, P, Q⟩ ⟨Sh.refl M, hP, hQ, Nat.zero_le _, Nat.zero_le _, fun i hi => absurd hi (by omega), fun i hi => absurd hi (by omega), fun i hi => absurd hi (by omega), ?_, fun _ _ _ => rfl⟩ (by omega)).mono ?_
  · intro a _ b _
    unfold splitAt
    rw [Finset.sum_range_zero, if_pos ⟨Nat.zero_le _, Nat.zero_le _⟩, zero_add]
    rfl
  · rintro ⟨t, k⟩ ⟨inv, hz⟩
    simp only [] at inv hz ⊢
    rw [inv.sh.nrows, inv.sh.ncols, Ok.bind_iff]
    refine (fill_ok inv.sm inv.pS.ge).mono fun P' ⟨hP1, hP2⟩ => ?_
    rw [Ok.bind_iff]
    refine (fill_ok inv.sn inv.qS.ge).mono fun Q' ⟨hQ1, hQ2⟩ => ?_
    rw [Ok.pure_iff]
    have eP : ∀ i < k, P'.cell i = t.P.cell i := fun i hi => by rw [hP2, if_neg (by omega)]
    have eQ : ∀ i < k, Q'.cell i = t.Q.cell i := fun i hi => by rw [hQ2, if_neg (by omega)]
    refine ⟨⟨inv.sh, hP1.trans inv.pS, hQ1.trans inv.qS, inv.sm, inv.sn, fun i hi => ?_, fun i hi => ?_, inv.piv, fun a ha b hb => ?_, inv.out⟩, hz, fun i h1 h2 => ?_, fun i h1 h2 => ?_⟩
    · show i ≤ P'.cell i ∧ P'.cell i < M.nrows
      rw [eP i hi]; exact inv.p i hi
    · show i ≤ Q'.cell i ∧ Q'.cell i < M.ncols
      rw [eQ i hi]; exact inv.q i hi
    · rw [walk_congr (v := P'.cell) (v' := t.P.cell) fun i hi => eP i (List.mem_range.1 hi), walk_congr (v := Q'.cell) (v' := t.Q.cell) fun i hi => eQ i (List.mem_range.1 hi)]
      exact inv.split a ha b hb
    · show P'.cell i = i
      rw [hP2, if_pos ⟨h1, h2⟩]
    · show Q'.cell i = i
      rw [hQ2, if_pos ⟨h1, h2⟩]

/-- Elements that are their own index do not matter. -/
theorem walk_long {v : Nat → Nat} {k : Nat} : ∀ n, k ≤ n → (∀ i, k ≤ i → i < n → v i = i) → Walk v (List.range n) = Walk v (List.range k) := by
  intro n
  induction n with
  | zero => intro h _; rw [Nat.le_zero.1 h]
  | succ n ih =>
    intro h hv
    rcases Nat.eq_or_lt_of_le h with rfl | h'
    · rfl
    · rw [List.range_succ, walk_append, hv n (by omega) (by omega), Equiv.swap_self, ih (by omega) fun i h1 h2 => hv i h1 (by omega)]
      exact mul_one _

end WB.m4w
