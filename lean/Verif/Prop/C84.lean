import Verif.Prop.C83

/-!
# C84 — the memory that the cofactor program (`/repo/test/github6`) leaves behind
-/
namespace WB.cmp.github6

/-- C84, full statement: a call of `cofactor` frees the blocks that it allocates. -/
def C84_statement : Prop :=
  ∀ (ji : Junk Int) (jf : Junk ℚ) (n : Nat) (m : Mem Int) (IN : Mem ℚ) (s : Heap) (r : Mem ℚ) (s' : Heap), 1 ≤ n →
    n * n ≤ m.size → n * n ≤ IN.size → cofactor ji jf m n IN s = .ok (r, s') → s'.live = s.live

variable (ji : Junk Int) (jf : Junk ℚ) {n : Nat} (m : Mem Int) (IN : Mem ℚ) (s : Heap)

/-- C84: a call of `determinant` for order `n` leaves exactly `n!` blocks behind. -/
theorem C84_determinant_violated (hn : 1 ≤ n) (hm : n * n ≤ m.size) {d : Int} {s' : Heap} (h : determinant ji n m s = .ok (d, s')) :
    s'.live = s.live + n.factorial := by
  obtain ⟨n, rfl⟩ := Nat.exists_eq_add_of_le' hn
  exact ((det_run ji (le_refl 1) n m s hm).of_ok h).2

/-- C84: a call of `cofactor` for order `n` from 2 on leaves exactly `(n + 1)!` blocks behind. -/
theorem C84_cofactor_violated (hn : 2 ≤ n) (hm : n * n ≤ m.size) (hi : n * n ≤ IN.size) {r : Mem ℚ} {s' : Heap}
    (h : cofactor ji jf m n IN s = .ok (r, s')) : s'.live = s.live + (n + 1).factorial := by
  obtain ⟨n, rfl⟩ := Nat.exists_eq_add_of_le' hn
  exact ((cofactor_run ji jf (le_refl 1) n m IN s hm hi).of_ok h).2.2.2

/-- C84: for order 1 it is one block. -/
theorem C84_order_one_violated (hm : 1 ≤ m.size) (hi : 1 ≤ IN.size) {r : Mem ℚ} {s' : Heap}
    (h : cofactor ji jf m 1 IN s = .ok (r, s')) : s'.live = s.live + 1 :=
  ((order1_run ji jf m IN s hm hi).of_ok h).2.2.2

/-- C84: the program with `TEST = k` leaves 362880 `k` blocks behind. -/
theorem C84_main_violated (k : Nat) (hi : IN.size = 64) : ∃ r s', main ji jf k IN s = .ok (r, s') ∧ s'.live = s.live + k * 362880 := by
  have := Res.forUp (E := fun _ => False) (s := s) (hi := k) (t := IN) (f := fun _ I => cofactor ji jf a8mem 8 I)
    (Q := fun I s' => s'.live = s.live + k * 362880)
    (P := fun i I s' => I.size = 64 ∧ s'.live = s.live + i * 362880) ⟨hi, by simp⟩
    (fun i I s1 _ ⟨h, hl⟩ => by
      obtain ⟨r, s', e⟩ := C83_cofactor_returns ji jf a8mem I s1 (n := 8) (by omega) (Nat.le_refl _) (by omega) 1 (le_refl _)
        a8_small (by decide) a8_det
      obtain ⟨_, _, _, h4⟩ := C83_cofactor_partial ji jf a8mem I s1 (by omega) (Nat.le_refl _) (by omega) e
      have h5 := C84_cofactor_violated ji jf a8mem I s1 (by omega) (Nat.le_refl _) (by omega) e
      rw [show Nat.factorial (8 + 1) = 362880 by decide] at h5
      exact .inl ⟨r, s', e, h4.trans h, by omega⟩)
    (fun I _ ⟨_, h2⟩ => h2)
  rcases this with ⟨r, s', e, h⟩ | ⟨e, h, _⟩
  · exact ⟨r, s', e, h⟩
  · exact h.elim

theorem C84_violated : ¬ C84_statement := fun h => by
  obtain ⟨r, s', e, _⟩ := C83_order_one_violated (fun _ _ => 0) (fun _ _ => 0) ⟨1, fun _ => 1⟩ ⟨1, fun _ => 0⟩ ⟨0, 0⟩
    (Nat.le_refl _) (Nat.le_refl _) (by decide)
  have h1 := h _ _ 1 _ _ _ r s' (Nat.le_refl _) (Nat.le_refl _) (Nat.le_refl _) e
  have h2 := C84_order_one_violated _ _ _ _ _ (Nat.le_refl _) (Nat.le_refl _) e
  omega

/-! ## Non-vacuity -/

/-- C84_determinant_violated and C84_cofactor_violated: the matrix [[1, 2], [3, 4]]. -/
example : ∃ r s', cofactor ji jf ex 2 ⟨4, fun _ => 7⟩ s = .ok (r, s') ∧ s'.live = s.live + 6 := by
  obtain ⟨r, s', e⟩ := C83_cofactor_returns ji jf ex ⟨4, fun _ => 7⟩ s (n := 2) (by omega) (Nat.le_refl _) (Nat.le_refl _) 4 (by decide)
    (by decide) (by decide) (by rw [ex_det]; decide)
  exact ⟨r, s', e, C84_cofactor_violated ji jf ex _ s (by omega) (Nat.le_refl _) (Nat.le_refl _) e⟩

/-- C84_main_violated: the 100 runs of the program leave more than 36 million blocks behind. -/
example : ∃ r s', main ji jf 100 ⟨64, fun _ => 7⟩ s = .ok (r, s') ∧ s'.live = s.live + 36288000 :=
  C84_main_violated ji jf _ s 100 rfl

end WB.cmp.github6
