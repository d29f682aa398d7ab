import Verif.SpecM4riPle
import Verif.Proof.M4riPluq
import Verif.Prop.C119

/-!
# C125 — M4RI's PLUQ factorisation from a PLE factorisation (`/repo/test/github1_M4RI/src/m4ri/ple.c`)
-/
namespace WB.m4w

open WB.cmp (Mem)

variable {m n : Nat} {M : Mzd} {P Q : Mem Nat} {A : Matrix (Fin m) (Fin n) (ZMod 2)}

/-- C125, full statement: `mzd_pluq` replaces `A` by a PLUQ factorisation of it, for every procedure `ple` that delivers PLE factorisations, and returns the rank of `A`.  The bits behind the last
column stay as they are. -/
def C125_statement : Prop := ∀ (ple : Mzd → Mem Nat → Mem Nat → C (Ple × Nat)) (l1 : Nat) {m n : Nat} {M : Mzd} {P Q : Mem Nat} {A : Matrix (Fin m) (Fin n) (ZMod 2)}, FactorsPerm ple → Rep M A →
  P.size = m → Q.size = n → ∃ N P' Q', mzd_pluq ple l1 M P Q = .ok (⟨N, P', Q'⟩, A.rank) ∧ IsPluq A N P' Q' A.rank ∧ ∀ a b, n ≤ b → N.bit a b = M.bit a b

/-- C125: the number of a PLUQ factorisation is the rank. -/
theorem C125_rank {N : Mzd} {k : Nat} (h : IsPluq A N P Q k) : k = A.rank := by
  obtain ⟨L, U, hA, hL, hU⟩ := h.factors
  have iP := C109_matrix_inverse (n := m) (v := P.cell) (len := m) fun i hi => ⟨hi, (h.permP.2 i hi).2⟩
  have iQ := C109_matrix_inverse (n := n) (v := Q.cell) (len := n) fun i hi => ⟨hi, (h.permQ.2 i hi).2⟩
  have key : PMat P.cell m m * A * (PMat Q.cell n n).transpose = L * U := by
    rw [hA, Matrix.mul_assoc, Matrix.mul_assoc, iQ.2, Matrix.mul_one, ← Matrix.mul_assoc, iP.2, Matrix.one_mul]
  have hm := h.rows
  have hn := h.cols
  rw [rank_of_permuted iP.1 iQ.1 key, rank_of_factors (fun i => ⟨i, by omega⟩) (fun i => ⟨i, by omega⟩)]
  · intro i
    rw [hL, if_neg (by simp), if_pos rfl]
  · intro i j g
    have g : (i : Nat) < j := g
    rw [hL, if_neg (by simp only []; omega), if_neg (by simp only []; omega)]
  · intro i
    rw [hU, if_neg (by simp), if_pos rfl]
  · intro i j g
    have g : (j : Nat) < i := g
    rw [hU, if_neg (by simp only []; omega), if_neg (by simp only []; omega)]

/-- The part after the factorisation. -/
theorem pluq_of_ple {N : Mzd} {k : Nat} (l1 : Nat) (h0 : 0 < n) (h : IsPlePerm A N P Q k) : Ok (triPart l1 k N Q) fun D => IsPluq A D P Q k ∧ (∀ a b, n ≤ b → D.bit a b = N.bit a b) ∧
    ∀ U : Matrix (Fin k) (Fin n) (ZMod 2), (∀ i b, U i b = if (i : Nat) < b then bitF (D.bit i b) else if (i : Nat) = b then 1 else 0) →
      ∀ (i : Fin k) (b : Fin n), (b : Nat) < Q.cell i → (U * PMat Q.cell n n) i b = 0 := by
  have hq := h.permQ.2
  have hkn := h.cols
  have hkm := h.rows
  have t := tri_part_ok (A := N) (Q := Q) l1 k h.wf (by rw [h.ncols]; exact h0) (by rw [h.ncols]; exact h.permQ.1) (by rw [h.ncols]; exact hq)
  rw [h.ncols, h.nrows] at t
  refine t.mono ?_
  intro D ⟨sh, hD⟩
  have low : ∀ a b, b ≤ a → D.bit a b = N.bit a b := fun a b hb => by
    rw [hD, walk_above (fun i hi => (hq i hi).1) b hb, ite_self]
  have up : ∀ a, a < k → ∀ b, D.bit a b = N.bit a (Walk Q.cell (List.range' (a + 1) (n - (a + 1))) b) := fun a ha b => by
    rw [hD, if_pos (by split <;> omega)]
  have tail : ∀ a, ∀ i ∈ List.range' (a + 1) (n - (a + 1)), i < n ∧ Q.cell i < n := fun a i hi => by
    have := List.mem_range'_1.1 hi
    exact ⟨by omega, (hq i (by omega)).2⟩
  have iQ := C109_matrix_inverse (n := n) (v := Q.cell) (len := n) fun i hi => ⟨hi, (hq i hi).2⟩
  obtain ⟨L, E, hA, hL, hE⟩ := h.factors
  have hU : ∀ (i : Fin k) (b : Fin n), (E * (PMat Q.cell n n).transpose) i b = if (i : Nat) < b then bitF (D.bit i b) else if (i : Nat) = b then 1 else 0 := fun i b => by
    rw [mul_pmat_trans (fun i hi => ⟨hi, (hq i hi).2⟩), hE]
    have hi := i.2
    by_cases g : (i : Nat) < b
    · rw [if_pos g, up i hi]
      exact tri_row (f := fun c => N.bit i c) (fun i hi => (hq i hi).1) (by omega) (fun j hj => h.increasing j i hj hi) (h.gap i hi) g
    · rw [if_neg g]
      have hw : Walk Q.cell (List.range n) b = Q.cell b := walk_pivot n b.2 (fun i hi => (hq i hi).1) fun j hj => h.increasing j b hj (by omega)
      simp only [hw]
      by_cases g' : (i : Nat) = b
      · rw [g', if_neg (by omega), if_pos rfl, if_pos rfl]
      · have := h.increasing b i (by omega) hi
        rw [if_neg (by omega), if_neg (by omega), if_neg g']
  refine ⟨⟨sh.wf h.wf, sh.nrows.trans h.nrows, sh.ncols.trans h.ncols, hkm, hkn, h.permP, h.permQ, fun a h1 h2 b h3 h4 => ?_,
    ⟨L, E * (PMat Q.cell n n).transpose, ?_, fun a j => ?_, hU⟩⟩, fun a b hb => ?_, fun U' hU' i b hb => ?_⟩
  · rw [hD]
    by_cases ha : a < if k ≠ 0 ∧ k < m then k else m
    · rw [if_pos ha]
      have hk0 : k = 0 := by
        by_contra g
        rw [if_pos (by omega)] at ha
        omega
      exact h.rest a h1 h2 _ (by omega) (walk_lt _ (tail a) b h4)
    · rw [if_neg ha]
      exact h.rest a h1 h2 b h3 h4
  · rw [Matrix.mul_assoc, Matrix.mul_assoc, Matrix.mul_assoc, iQ.1, Matrix.mul_one, hA]
  · rw [hL]
    by_cases g : (j : Nat) < a
    · rw [if_pos g, if_pos g, low _ _ g.le]
    · rw [if_neg g, if_neg g]
  · rw [hD, walk_fix (n := n) _ (tail a) b hb, ite_self]
  · have : U' = E * (PMat Q.cell n n).transpose := by
      ext i b
      rw [hU', hU]
    rw [this, Matrix.mul_assoc, iQ.1, Matrix.mul_one, hE, if_neg (by omega), if_neg (by omega)]

/-- C125, what holds: the full statement for matrices with at least one column; also for `_mzd_pluq`. -/
theorem C125_pluq_partial (ple : Mzd → Mem Nat → Mem Nat → C (Ple × Nat)) (l1 : Nat) (hple : FactorsPerm ple) (h0 : 0 < n) (hM : Rep M A) (hP : P.size = m) (hQ : Q.size = n) :
    ∃ N P' Q', mzd_pluq ple l1 M P Q = .ok (⟨N, P', Q'⟩, A.rank) ∧ _mzd_pluq ple l1 M P Q = .ok (⟨N, P', Q'⟩, A.rank) ∧ IsPluq A N P' Q' A.rank ∧ ∀ a b, n ≤ b → N.bit a b = M.bit a b := by
  obtain ⟨N, P', Q', k, e, h, out⟩ := hple hM hP hQ
  obtain ⟨D, e1, hD, out', _⟩ := pluq_of_ple l1 h0 h
  have hk := C125_rank hD
  have key : _mzd_pluq ple l1 M P Q = .ok (⟨D, P', Q'⟩, A.rank) := by
    unfold _mzd_pluq
    simp only [e, C_ok_bind, e1]
    rw [← hk]
    rfl
  refine ⟨D, P', Q', ?_, key, by rw [← hk]; exact hD, fun a b hb => (out' a b hb).trans (out a b hb)⟩
  unfold mzd_pluq
  rw [if_neg (by rw [hP, hM.nrows]; simp), if_neg (by rw [hQ, hM.ncols]; simp), key]

/-- C125: permutations of other lengths make the program abort. -/
theorem C125_size (ple : Mzd → Mem Nat → Mem Nat → C (Ple × Nat)) (l1 : Nat) (h : P.size ≠ M.nrows ∨ Q.size ≠ M.ncols) : mzd_pluq ple l1 M P Q = .error .abort := by
  unfold mzd_pluq
  by_cases g : P.size ≠ M.nrows
  · rw [if_pos g]
  · rw [if_neg g, if_pos (h.resolve_left g)]

/-- C125, what goes wrong: without columns the number of rows that fit into the cache is divided by zero. -/
theorem C125_no_columns_violated (ple : Mzd → Mem Nat → Mem Nat → C (Ple × Nat)) (l1 : Nat) (hple : FactorsPerm ple) {A : Matrix (Fin m) (Fin 0) (ZMod 2)} (hM : Rep M A) (hP : P.size = m)
    (hQ : Q.size = 0) : mzd_pluq ple l1 M P Q = .error .divZero := by
  obtain ⟨N, P', Q', k, e, h, out⟩ := hple hM hP hQ
  unfold mzd_pluq _mzd_pluq
  rw [if_neg (by rw [hP, hM.nrows]; simp), if_neg (by rw [hQ, hM.ncols]; simp)]
  have hk : k = 0 := by have := h.cols; omega
  have hw : N.width = 0 := by unfold Mzd.width; rw [h.ncols]
  have e1 : triPart l1 k N Q' = .error .divZero := by
    unfold triPart mzd_apply_p_right_trans_tri
    rw [if_neg (by omega), if_neg (by rw [h.permQ.1, h.ncols]; simp), if_pos hw]
  simp only [e, C_ok_bind, e1]
  rfl

/-- C125: the naive factorisation of C119 is one that `mzd_pluq` can be used with. -/
theorem C125_naive_factors : FactorsPerm _mzd_ple_naive := by
  intro m n M P Q A hM hP hQ
  obtain ⟨N, P', Q', k, e, hk, hp, ⟨qS, hq, inc⟩, ⟨X, hX, L, E, hA, hL, hE, _, _, gap, rest⟩, out⟩ := C119_ple hM hP hQ
  have hkm : k ≤ m := by rw [hk]; exact Matrix.rank_le_height A
  have hkn : k ≤ n := by rw [hk]; exact Matrix.rank_le_width A
  refine ⟨N, P', Q', k, e, ⟨hX.wf, hX.nrows, hX.ncols, hkm, hkn, hp, ⟨qS, hq⟩, inc, gap, fun a h1 h2 b h3 h4 => ?_, ⟨L, E, hA, hL, hE⟩⟩, out⟩
  have := rest ⟨a, h2⟩ ⟨b, h4⟩ h1 h3
  rw [← hX.bit] at this
  exact bitF_inj.1 this

/-- C125: the full statement is false. -/
theorem C125_violated : ¬ C125_statement := by
  intro h
  have hM : Rep (mzd_init 2 0) (0 : Matrix (Fin 2) (Fin 0) (ZMod 2)) := ⟨init_wf _ _, rfl, rfl, fun _ j => j.elim0⟩
  obtain ⟨N, P', Q', h1, _⟩ := h _mzd_ple_naive 32768 (P := ⟨2, fun _ => 0⟩) (Q := ⟨0, fun _ => 0⟩) C125_naive_factors hM rfl rfl
  rw [C125_no_columns_violated _ _ C125_naive_factors hM rfl rfl] at h1
  exact absurd h1 (by simp)

/-- C125, with the naive factorisation: the theorem applies to the matrix of C109 with 130 rows and columns. -/
example : ∃ N P' Q', mzd_pluq _mzd_ple_naive 32768 exPM (⟨130, fun _ => 0⟩ : Mem Nat) ⟨130, fun _ => 0⟩ = .ok (⟨N, P', Q'⟩, exPA.rank) ∧ IsPluq exPA N P' Q' exPA.rank := by
  obtain ⟨N, P', Q', h1, _, h2, _⟩ := C125_pluq_partial _mzd_ple_naive 32768 C125_naive_factors (by decide) (P := ⟨130, fun _ => 0⟩) (Q := ⟨130, fun _ => 0⟩) exP_rep rfl rfl
  exact ⟨N, P', Q', h1, h2⟩

/-- The matrix of C119 with three rows and four columns: rank 2, and now the pivots are on the diagonal. -/
example : (mzd_pluq _mzd_ple_naive 32768 exPle ⟨3, fun _ => 7⟩ ⟨4, fun _ => 7⟩).map (fun s => (s.2, (List.range 3).map s.1.P.cell, (List.range 4).map s.1.Q.cell, (List.range 3).map fun i => s.1.A.word i 0)) =
    .ok (2, [1, 1, 2], [1, 3, 2, 3], [7#64, 2#64, 3#64]) := by
  with_unfolding_all rfl

end WB.m4w
