import Verif.Prop.C83
import Verif.Prop.C86

/-!
# C87 — the memory that the linear algebra program `/repo/test/github3` leaves behind
-/
namespace WB.cmp.github3

/-- C87, full statement: `invermmatrix` frees the memory that it allocates. -/
def C87_statement : Prop :=
  ∀ (jm : JunkM) (A : Mem2 ℚ) (s : Heap) (o : Outcome) (s' : Heap), A.rows ≠ 0 → invermmatrix jm A s = .ok (o, s') → s'.live = s.live

variable (jm : JunkM) {n : Nat} (A : Mem2 ℚ) (s : Heap)

/-- C87: `adjmmatrix` for order `tam` frees one of the `tam ^ 2` matrices that it allocates; each has `n + 2` blocks. -/
theorem C87_adjugate_violated {Adj : Mem2 ℚ} {tam : Nat} (h1 : 2 ≤ tam) (h2 : tam ≤ n) (hA : Sq n A) (hJ : tam ≤ Adj.rows ∧ tam ≤ Adj.cols)
    {r : Mem2 ℚ} {s' : Heap} (e : adjmmatrix jm A Adj tam s = .ok (r, s')) : s'.live = s.live + (tam ^ 2 - 1) * (n + 2) := by
  obtain ⟨k, rfl⟩ := Nat.exists_eq_add_of_le' (show 1 ≤ tam by omega)
  have := ((adj_run jm (by omega) A Adj s (hA.1.trans hA.2.symm) (h2.trans hA.1.ge) hJ).of_ok e).2.2
  rw [this, hA.1, sq]

/-- C87: `invermmatrix` leaves `(n ^ 2 - 1) * (n + 2)` blocks behind if the matrix has an inverse, and none if it has none. -/
theorem C87_inverse_violated (h1 : 2 ≤ n) (hA : Sq n A) {o : Outcome} {s' : Heap} (e : invermmatrix jm A s = .ok (o, s')) :
    s'.live = if (A.toMat n).det = 0 then s.live else s.live + (n ^ 2 - 1) * (n + 2) := by
  obtain ⟨k, rfl⟩ := Nat.exists_eq_add_of_le' (show 1 ≤ n by omega)
  have := (inver_run jm (by omega) A s hA.1 hA.2).of_ok e
  rcases this with ⟨h0, _, h⟩ | ⟨h0, _, h⟩
  · rw [if_pos h0, h]
  · rw [if_neg h0, h, sq]

/-- C87: for order 1 nothing is left behind. -/
theorem C87_inverse_one_partial (hA : Sq 1 A) {o : Outcome} {s' : Heap} (e : invermmatrix jm A s = .ok (o, s')) : s'.live = s.live :=
  ((inver_one jm A s hA.1 hA.2).of_ok e).1

theorem C87_violated : ¬ C87_statement := fun h => by
  obtain ⟨o, s', e, _⟩ := C86_inverse_partial (fun _ _ _ => 0) ex ⟨0, 0⟩ (n := 2) (by omega) ⟨rfl, rfl⟩
  have h1 := h _ ex _ o s' (by decide) e
  rw [C87_inverse_violated _ ex _ (n := 2) (by omega) ⟨rfl, rfl⟩ e, ex_det, if_neg (by norm_num)] at h1
  exact absurd h1 (by decide)

/-! ## The test program -/

/-- The matrix `A8`. -/
def A8 : Mem2 ℚ := ⟨8, 8, a8⟩

theorem A8_mat : A8.toMat 8 = toRat (github6.a8mem.toMat 8) := by
  ext i j
  show a8 i j = ((github6.a8mem.cell (i * 8 + j) : Int) : ℚ)
  rw [a8]
  congr 1
  revert i j
  decide +kernel

theorem A8_det : (A8.toMat 8).det ≠ 0 := by
  rw [A8_mat, show (toRat (github6.a8mem.toMat 8)).det = ((github6.a8mem.toMat 8).det : ℚ) from
    (RingHom.map_det (Int.castRingHom ℚ) _).symm]
  exact_mod_cast github6.a8_det

/-- The memory that the calls of `invermmatrix` leave behind. -/
theorem inver_many (n : Nat) (B : Mem2 ℚ) (hB : Sq 8 B) (hd : (B.toMat 8).det ≠ 0) (s : Heap) :
    Res Never (forUp 0 n () fun _ _ => do
      let _ ← invermmatrix jm B
      pure ()) s fun _ s' => s'.live = s.live + n * 630 := by
  refine Res.forUp (P := fun k _ s' => s'.live = s.live + k * 630) (by simp) ?_ fun _ _ h => h
  rintro k _ s1 hk h
  refine Res.bind (P := fun _ s' => s'.live = s1.live + 630) ?_ ?_
  · refine (inver_run jm (N := 7) (by omega) B s1 hB.1 hB.2).mono ?_
    rintro o s' (⟨h0, _⟩ | ⟨_, _, h⟩)
    · exact absurd h0 hd
    · exact h
  · intro o s2 h2
    exact Res.pure (by omega)

/-- C87: the test program with `TEST = n` leaves 630 `n` + 10 blocks behind. -/
theorem C87_main_violated (n : Nat) : ∃ s', main jm n s = .ok ((), s') ∧ s'.live = s.live + 10 + n * 630 := by
  have : Res Never (main jm n) s fun _ s' => s'.live = s.live + 10 + n * 630 := by
    unfold main
    refine Res.mem ?_
    refine Res.lift (P := fun r => Sq 8 r ∧ ∀ i j, i < 8 → j < 8 → r.cell i j = a8 i j) ?_ fun B ⟨hB, hv⟩ => ?_
    · refine fill (look := fun (m : Mem2 ℚ) i j => m.cell i j) (F := a8) (Good := fun m => Sq 8 m) ⟨rfl, rfl⟩ ?_
      intro i j m hi hj hg
      rw [Mem2.Ok_put]
      refine ⟨by rw [hg.1, hg.2]; omega, hg, if_pos ⟨rfl, rfl⟩, fun k l _ _ h => if_neg (by omega)⟩
    · have hm : B.toMat 8 = A8.toMat 8 := by
        ext i j
        exact hv i j i.2 j.2
      exact inver_many jm n B hB (hm ▸ A8_det) _
  obtain ⟨u, s', e, h⟩ := Res.run this
  exact ⟨s', e, h⟩

/-! ## Non-vacuity -/

/-- C87_inverse_violated, C87_adjugate_violated: a 2 by 2 matrix leaves 12 blocks. -/
example : ∃ o s', invermmatrix jm ex s = .ok (o, s') ∧ s'.live = s.live + 12 := by
  obtain ⟨o, s', e, _⟩ := C86_inverse_partial jm ex s (n := 2) (by omega) ⟨rfl, rfl⟩
  refine ⟨o, s', e, ?_⟩
  rw [C87_inverse_violated _ ex _ (n := 2) (by omega) ⟨rfl, rfl⟩ e, ex_det, if_neg (by norm_num)]
  rfl

/-- C87_main_violated: with 1000 rounds 630010 blocks are left behind. -/
example : ∃ s', main jm 1000 s = .ok ((), s') ∧ s'.live = s.live + 10 + 1000 * 630 := C87_main_violated jm s 1000

end WB.cmp.github3
