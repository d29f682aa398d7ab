import Verif.Model.M4riPluq
import Verif.Proof.M4riSolve
import Verif.Proof.M4riPleE

/-!
# The PLUQ factorisation from a PLE factorisation (helper lemmas)
-/
namespace WB.m4w

open WB.cmp (Mem Mem2)

theorem walk_append_list (v : Nat → Nat) (l l' : List Nat) : Walk v (l ++ l') = Walk v l * Walk v l' := by
  unfold Walk
  rw [List.map_append, List.prod_append]

theorem walk_range_succ (v : Nat → Nat) (t : Nat) (d : Nat) : Walk v (List.range (t + 1)) d = Walk v (List.range t) (Equiv.swap t (v t) d) := by
  rw [List.range_succ, walk_append, Equiv.Perm.mul_apply]

theorem walk_split (v : Nat → Nat) {a n : Nat} (h : a < n) (b : Nat) : Walk v (List.range n) b = Walk v (List.range (a + 1)) (Walk v (List.range' (a + 1) (n - (a + 1))) b) := by
  rw [← Equiv.Perm.mul_apply, ← walk_append_list]
  congr 2
  rw [List.range_eq_range', List.range_eq_range']
  conv_lhs => rw [show n = (a + 1) + (n - (a + 1)) by omega]
  rw [← List.range'_append_1, Nat.zero_add]

theorem walk_le {v : Nat → Nat} : ∀ t d, t ≤ d → Walk v (List.range t) d ≤ d := by
  intro t
  induction t with
  | zero => intro d _; exact le_refl _
  | succ t ih =>
    intro d hd
    rw [walk_range_succ]
    by_cases h : d = v t
    · rw [h, Equiv.swap_apply_right]
      exact (ih t (le_refl _)).trans (by omega)
    · rw [Equiv.swap_apply_of_ne_of_ne (by omega) h]
      exact ih d (by omega)

theorem walk_same {v : Nat → Nat} : ∀ t d, t ≤ d → (∀ j < t, v j ≠ d) → Walk v (List.range t) d = d := by
  intro t
  induction t with
  | zero => intro d _ _; rfl
  | succ t ih =>
    intro d hd h
    rw [walk_range_succ, Equiv.swap_apply_of_ne_of_ne (by omega) (h t (by omega)).symm]
    exact ih d (by omega) fun j hj => h j (by omega)

theorem walk_low {v : Nat → Nat} : ∀ t d, t ≤ d → (∃ j < t, v j = d) → Walk v (List.range t) d < t := by
  intro t
  induction t with
  | zero => rintro d _ ⟨j, hj, _⟩; omega
  | succ t ih =>
    rintro d hd ⟨j, hj, h⟩
    rw [walk_range_succ]
    by_cases hd' : d = v t
    · rw [hd', Equiv.swap_apply_right]
      exact (walk_le t t (le_refl _)).trans_lt (by omega)
    · rw [Equiv.swap_apply_of_ne_of_ne (by omega) hd']
      have : j ≠ t := fun e => hd' (by rw [← h, e])
      exact (ih d (by omega) ⟨j, by omega, h⟩).trans (by omega)

theorem walk_above {v : Nat → Nat} {a n : Nat} (hv : ∀ i < n, i ≤ v i) (j : Nat) (hj : j ≤ a) : Walk v (List.range' (a + 1) (n - (a + 1))) j = j := by
  have : ∀ l : List Nat, (∀ i ∈ l, a < i ∧ i < n) → Walk v l j = j := by
    intro l
    induction l with
    | nil => intro _; rfl
    | cons i l ih =>
      intro h
      have h1 := h i List.mem_cons_self
      have h2 := hv i h1.2
      rw [walk_cons, Equiv.Perm.mul_apply, ih fun i hi => h i (List.mem_cons_of_mem _ hi)]
      exact Equiv.swap_apply_of_ne_of_ne (by omega) (by omega)
  exact this _ fun i hi => by have := List.mem_range'_1.1 hi; omega

theorem walk_stays {v : Nat → Nat} {a n : Nat} (hv : ∀ i < n, i ≤ v i) (b : Nat) (hb : a < b) : a < Walk v (List.range' (a + 1) (n - (a + 1))) b := by
  by_contra h
  have h1 := walk_above hv (a := a) (n := n) (Walk v (List.range' (a + 1) (n - (a + 1))) b) (by omega)
  have h2 := (Walk v (List.range' (a + 1) (n - (a + 1)))).injective h1
  omega

/-- The exchanges in the whole row of `E` and those behind the diagonal in the row of the factored matrix `f` have the same effect behind the diagonal. -/
theorem tri_row {v : Nat → Nat} {f : Nat → Bool} {a n : Nat} (hv : ∀ i < n, i ≤ v i) (ha : a < n) (inc : ∀ j < a, v j < v a) (gap : ∀ b, a < b → b ≤ v a → f b = false) {b : Nat} (hb : a < b) :
    (if v a < Walk v (List.range n) b then bitF (f (Walk v (List.range n) b)) else if v a = Walk v (List.range n) b then 1 else 0) = bitF (f (Walk v (List.range' (a + 1) (n - (a + 1))) b)) := by
  rw [walk_split v ha]
  have hc := walk_stays hv (n := n) b hb
  generalize Walk v (List.range' (a + 1) (n - (a + 1))) b = c at hc
  by_cases h : ∃ j < a + 1, v j = c
  · have h1 := walk_low (a + 1) c (by omega) h
    have h2 : c ≤ v a := by
      obtain ⟨j, hj, rfl⟩ := h
      rcases Nat.lt_succ_iff_lt_or_eq.1 hj with g | g
      · exact (inc j g).le
      · rw [g]
    rw [if_neg (by omega), if_neg (by omega), gap c hc h2]
    rfl
  · have h1 := walk_same (v := v) (a + 1) c (by omega) fun j hj e => h ⟨j, hj, e⟩
    rw [h1]
    by_cases h2 : v a < c
    · rw [if_pos h2]
    · have h3 : v a ≠ c := fun e => h ⟨a, by omega, e⟩
      rw [if_neg h2, if_neg h3, gap c hc (by omega)]
      rfl

theorem tri_part_ok {A : Mzd} {Q : Mem Nat} (l1 r : Nat) (w : A.Wf) (h0 : 0 < A.ncols) (hs : Q.size = A.ncols) (hv : ∀ i < A.ncols, i ≤ Q.cell i ∧ Q.cell i < A.ncols) :
    Ok (triPart l1 r A Q) fun D => Sh A D ∧
      ∀ a j, D.bit a j = if a < (if r ≠ 0 ∧ r < A.nrows then r else A.nrows) then A.bit a (Walk Q.cell (List.range' (a + 1) (A.ncols - (a + 1))) j) else A.bit a j := by
  unfold triPart
  by_cases h : r ≠ 0 ∧ r < A.nrows
  · rw [if_pos h, if_pos h]
    have hw := window_rep w (x := 0) (x' := r) (y := 0) (y' := A.ncols) (r := r) (c := A.ncols) (by omega) (by omega) (by omega) (by omega) (by omega) (by omega) (by omega)
    have hb : ∀ a b, (mzd_window A 0 0 r A.ncols).bit a b = A.bit a b := fun a b => by rw [window_bit A (by omega), Nat.zero_add, Nat.zero_add]
    have hc : (mzd_window A 0 0 r A.ncols).ncols = A.ncols := hw.ncols
    have t := tri_spec (P := Q) l1 hw.wf (by rw [hc]; exact h0) (by rw [hc]; exact hs) (by rw [hc]; exact hv)
    rw [hw.nrows, hc] at t
    refine (onWindow_spec w (x := 0) (y := 0) (x' := r) (y' := A.ncols) (by omega) (f := fun W => mzd_apply_p_right_trans_tri l1 W Q) (r := r) (c := A.ncols)
      (Y := fun a j => bitF (A.bit a (Walk Q.cell (List.range' (a + 1) (A.ncols - (a + 1))) j))) (t.mono ?_)).mono ?_
    · intro D ⟨sh, hD⟩
      refine ⟨sh, fun i j => by rw [hD, if_pos i.2, hb], fun a b hab => ?_⟩
      rw [hD]
      by_cases ha : a < r
      · rw [if_pos ha, walk_fix (n := A.ncols) _ (fun i hi => by
          have := List.mem_range'_1.1 hi
          exact ⟨by omega, (hv i (by omega)).2⟩) b (by omega)]
      · rw [if_neg ha]
    · intro N ⟨sh, h1, h2⟩
      refine ⟨sh, fun a j => ?_⟩
      by_cases ha : a < r
      · rw [if_pos ha]
        by_cases hj : j < A.ncols
        · have := h1 ⟨a, ha⟩ ⟨j, hj⟩
          simp only [Nat.zero_add] at this
          exact bitF_inj.1 this
        · rw [h2 a j (by omega), walk_fix (n := A.ncols) _ (fun i hi => by
            have := List.mem_range'_1.1 hi
            exact ⟨by omega, (hv i (by omega)).2⟩) j (by omega)]
      · rw [if_neg ha, h2 a j (by omega)]
  · rw [if_neg h, if_neg h]
    exact tri_spec l1 w h0 hs hv

end WB.m4w
