import Verif.Model.Github3
import Verif.Proof.Cmp

/-!
# The determinant and the inverse of `/repo/test/github3` (helper lemmas)
-/
namespace WB.cmp.github3

/-- No fault. -/
abbrev Never : Fault → Prop := fun _ => False

theorem Res.run {α : Type} {x : HM α} {s : Heap} {Q : α → Heap → Prop} (h : Res Never x s Q) : ∃ a s', x s = .ok (a, s') ∧ Q a s' :=
  h.resolve_right fun ⟨_, h, _⟩ => h

theorem Res.mem {E : Fault → Prop} {β : Type} {s : Heap} {jm : JunkM} {n m : Nat} {f : Mem2 ℚ → HM β} {Q : β → Heap → Prop}
    (h : Res E (f ⟨n, m, jm s.next⟩) ⟨s.next + 1, s.live + (n + 2)⟩ Q) : Res E (memmatr jm n m >>= f) s Q := h

theorem Res.freed {E : Fault → Prop} {β : Type} {s : Heap} {A : Mem2 ℚ} {f : Unit → HM β} {Q : β → Heap → Prop}
    (h : Res E (f ()) { s with live := s.live - (A.rows + 2) } Q) : Res E (freematr A >>= f) s Q := h

theorem cofac_run {N p q : Nat} (hN : 1 ≤ N) (hp : p ≤ N) (hq : q ≤ N) (A D : Mem2 ℚ) (hA : N + 1 ≤ A.rows ∧ N + 1 ≤ A.cols)
    (hD : N ≤ D.rows ∧ N ≤ D.cols) :
    Ok (cofacmmatrix A D p q (N + 1)) fun r => (r.rows = D.rows ∧ r.cols = D.cols) ∧
      r.toMat N = (A.toMat (N + 1)).submatrix (Fin.succAbove ⟨p, by omega⟩) (Fin.succAbove ⟨q, by omega⟩) := by
  unfold cofacmmatrix cofacRow
  rw [Ok.bind_iff]
  refine (collect2 (N := N) (p := p) (q := q) (by omega) hp hq A hA (s := D)
    (fun i j b h k _ _ hc => ?_) (fun i j b h k _ _ hi hj hk => ?_) hD).mono ?_
  · exact if_neg (by omega)
  · simp only [ne_eq, hi, hj, not_false_eq_true, and_self, if_true]
    refine bind_congr fun x => bind_congr fun b => ?_
    by_cases hw : k + 1 = N
    · rw [if_pos hw, if_pos (by omega)]
    · rw [if_neg hw, if_neg (by omega)]
  · rintro r ⟨s', k, w, rfl, hz, hl⟩
    rw [Ok.pure_iff]
    refine ⟨hz, ?_⟩
    ext i j
    show s'.cell i j = A.cell (Fin.succAbove ⟨p, _⟩ i : Fin (N + 1)).val (Fin.succAbove ⟨q, _⟩ j : Fin (N + 1)).val
    rw [hl i j i.2 j.2, succAbove_val, succAbove_val]

/-- The `k`-th term of the expansion along the first row. -/
def term {n : Nat} (A : Matrix (Fin (n + 3)) (Fin (n + 3)) ℚ) (k : Nat) : ℚ :=
  if h : k < n + 3 then (-1) ^ k * A 0 ⟨k, h⟩ * (A.submatrix Fin.succ (Fin.succAbove ⟨k, h⟩)).det else 0

theorem sum_term {n : Nat} (A : Matrix (Fin (n + 3)) (Fin (n + 3)) ℚ) : ∑ k ∈ Finset.range (n + 3), term A k = A.det := by
  rw [Finset.sum_range, Matrix.det_succ_row_zero]
  refine Finset.sum_congr rfl fun k _ => ?_
  rw [term, dif_pos k.2]

theorem det_run (jm : JunkM) : ∀ (n : Nat) (A : Mem2 ℚ) (s : Heap), A.rows = A.cols → n + 1 ≤ A.rows →
    Res Never (determmatrix jm (n + 1) A) s fun d s' => d = (A.toMat (n + 1)).det ∧ s'.live = s.live
  | 0, A, s, hA, hn => by
    unfold determmatrix
    rw [if_pos hA]
    refine Or.inl ⟨A.cell 0 0, s, liftC_run (if_pos (by omega)), ?_, rfl⟩
    show _ = (A.toMat 1).det
    rw [Matrix.det_fin_one]; rfl
  | 1, A, s, hA, hn => by
    unfold determmatrix
    rw [if_pos hA]
    have : Ok (do pure ((← A.get 0 0) * (← A.get 1 1) - (← A.get 0 1) * (← A.get 1 0)) : C ℚ) fun d => d = (A.toMat 2).det := by
      simp only [Ok.bind_iff, Mem2.Ok_get, Ok.pure_iff]
      refine ⟨by omega, by omega, by omega, by omega, ?_⟩
      rw [Matrix.det_fin_two]; rfl
    obtain ⟨d, e, h⟩ := this
    exact Or.inl ⟨d, s, liftC_run e, h, rfl⟩
  | n + 2, A, s, hA, hn => by
    unfold determmatrix
    rw [if_pos hA]
    refine Res.mem ?_
    refine Res.bind (P := fun r s' => r.2.1 = (A.toMat (n + 3)).det ∧ r.1.rows = A.rows ∧ s'.live = s.live + (A.rows + 2)) ?_ ?_
    · refine Res.forUp (P := fun k r s' => r.2.1 = ∑ j ∈ Finset.range k, term (A.toMat (n + 3)) j ∧ r.2.2 = (-1) ^ k ∧
        (r.1.rows = A.rows ∧ r.1.cols = A.cols) ∧ s'.live = s.live + (A.rows + 2)) ?_ ?_ ?_
      · exact ⟨by simp, by simp, ⟨rfl, rfl⟩, rfl⟩
      · rintro k ⟨D, determ, sg⟩ s1 hk ⟨rfl, rfl, hD, hlive⟩
        simp only at hD
        refine Res.lift (cofac_run (N := n + 2) (p := 0) (q := k) (by omega) (by omega) (by omega) A D (by omega) (by omega)) fun D' ⟨hD', hm⟩ => ?_
        refine Res.step (if_pos (by omega)) ?_
        refine Res.bind (det_run jm (n + 1) D' s1 (by omega) (by omega)) fun d s2 ⟨hd, hl2⟩ => ?_
        refine Res.pure ⟨?_, ?_, by simp only; omega, by omega⟩
        · simp only
          rw [Finset.sum_range_succ, hd, hm, term, dif_pos hk]
          rfl
        · simp only; ring
      · rintro ⟨D, determ, sg⟩ s1 ⟨h1, _, h3, h4⟩
        exact ⟨h1.trans (sum_term _), h3.1, h4⟩
    · rintro ⟨D, determ, sg⟩ s1 ⟨h1, h2, h3⟩
      simp only at h2
      refine Res.freed (Res.pure ⟨h1, ?_⟩)
      show s1.live - (D.rows + 2) = _
      omega

theorem det_zero (jm : JunkM) (A : Mem2 ℚ) (s : Heap) (hA : A.rows = A.cols) :
    Res Never (determmatrix jm 0 A) s fun d s' => d = 0 ∧ s'.live = s.live := by
  unfold determmatrix
  rw [if_pos hA]
  refine Res.mem (Res.freed (Res.pure ⟨rfl, ?_⟩))
  show s.live + (A.rows + 2) - (A.rows + 2) = _
  omega

theorem sign {R : Type} [CommRing R] (k : Nat) : (if k % 2 = 0 then (1 : R) else -1) = (-1) ^ k := by
  by_cases h : k % 2 = 0
  · rw [if_pos h, Even.neg_one_pow (Nat.even_iff.2 h)]
  · rw [if_neg h, Odd.neg_one_pow (Nat.odd_iff.2 (by omega))]

/-- One element of the adjugate. -/
theorem adjEntry_run (jm : JunkM) {N i j : Nat} (hN : 1 ≤ N) (hi : i < N + 1) (hj : j < N + 1) (A Adj : Mem2 ℚ) (o : Option (Mem2 ℚ)) (s : Heap)
    (hA : A.rows = A.cols) (hn : N + 1 ≤ A.rows) (hJ : N + 1 ≤ Adj.rows ∧ N + 1 ≤ Adj.cols) :
    Res Never (adjEntry jm A (N + 1) i j (Adj, o)) s fun r s' =>
      r.1 = ⟨Adj.rows, Adj.cols, fun k l => if k = j ∧ l = i then (A.toMat (N + 1)).adjugate ⟨j, hj⟩ ⟨i, hi⟩ else Adj.cell k l⟩ ∧
      (∃ E, r.2 = some E ∧ E.rows = A.rows) ∧ s'.live = s.live + (A.rows + 2) := by
  unfold adjEntry
  refine Res.mem ?_
  refine Res.lift (cofac_run hN (by omega) (by omega) A _ (by omega) (by simp only; omega)) fun E ⟨hE, hm⟩ => ?_
  simp only at hE
  obtain ⟨n, rfl⟩ := Nat.exists_eq_add_of_le' hN
  refine Res.bind (det_run jm n E _ (by omega) (by omega)) fun d s2 ⟨hd, hl2⟩ => ?_
  refine Res.step (if_pos (by omega)) (Res.pure ⟨?_, ⟨E, rfl, hE.1⟩, hl2⟩)
  simp only [adjugate_entry, sign, hd, hm]

theorem adj_run (jm : JunkM) {N : Nat} (hN : 1 ≤ N) (A Adj : Mem2 ℚ) (s : Heap) (hA : A.rows = A.cols) (hn : N + 1 ≤ A.rows)
    (hJ : N + 1 ≤ Adj.rows ∧ N + 1 ≤ Adj.cols) :
    Res Never (adjmmatrix jm A Adj (N + 1)) s fun r s' => (r.rows = Adj.rows ∧ r.cols = Adj.cols) ∧
      r.toMat (N + 1) = (A.toMat (N + 1)).adjugate ∧ s'.live = s.live + ((N + 1) * (N + 1) - 1) * (A.rows + 2) := by
  unfold adjmmatrix
  rw [if_neg (by omega)]
  refine Res.bind (P := fun r s' => r = Adj ∧ s' = s) (Res.pure ⟨rfl, rfl⟩) ?_
  rintro a b ⟨h1, h2⟩
  subst a b
  refine Res.bind (P := fun r s' => ((r.1.rows = Adj.rows ∧ r.1.cols = Adj.cols) ∧ (∃ E, r.2 = some E ∧ E.rows = A.rows) ∧
    s'.live = s.live + (N + 1) * (N + 1) * (A.rows + 2)) ∧ ∀ i j : Fin (N + 1), r.1.cell j i = (A.toMat (N + 1)).adjugate j i) ?_ ?_
  · refine (Res.fill (look := fun (r : Mem2 ℚ × Option (Mem2 ℚ)) i j => r.1.cell j i)
      (F := fun i j => if h : j < N + 1 ∧ i < N + 1 then (A.toMat (N + 1)).adjugate ⟨j, h.1⟩ ⟨i, h.2⟩ else 0)
      (Good := fun k r s' => (r.1.rows = Adj.rows ∧ r.1.cols = Adj.cols) ∧ (k ≠ 0 → ∃ E, r.2 = some E ∧ E.rows = A.rows) ∧
        s'.live = s.live + k * (A.rows + 2)) ⟨⟨rfl, rfl⟩, fun h => absurd rfl h, by simp⟩ ?_).mono ?_
    · rintro i j ⟨J, o⟩ s1 hi hj ⟨g1, g2, g3⟩
      simp only at g1
      refine (adjEntry_run jm hN hi hj A J o s1 hA hn (by omega)).mono ?_
      rintro ⟨J', o'⟩ s2 ⟨h1, h2, h3⟩
      simp only at h1
      subst h1
      refine ⟨⟨g1, fun _ => h2, by rw [h3, g3, Nat.succ_mul]; omega⟩, ?_, fun k l hk hl hne => if_neg (by omega)⟩
      simp only
      rw [if_pos ⟨trivial, trivial⟩, dif_pos ⟨hj, hi⟩]
    · rintro ⟨J, o⟩ s1 ⟨⟨g1, g2, g3⟩, hl⟩
      refine ⟨⟨g1, g2 (by simp), g3⟩, fun i j => ?_⟩
      have := hl i j i.2 j.2
      rw [dif_pos ⟨j.2, i.2⟩] at this
      exact this
  · rintro ⟨J, o⟩ s1 ⟨⟨g1, ⟨E, rfl, hE⟩, g3⟩, hl⟩
    refine Res.freed (Res.pure ⟨g1, ?_, ?_⟩)
    · ext i j
      exact hl j i
    · show s1.live - (E.rows + 2) = _
      rw [Nat.sub_mul, g3, hE]
      have : A.rows + 2 ≤ (N + 1) * (N + 1) * (A.rows + 2) := Nat.le_mul_of_pos_left _ (by positivity)
      omega

theorem adj_one (jm : JunkM) (A Adj : Mem2 ℚ) (s : Heap) (hA : A.rows = A.cols) (hn : 1 ≤ A.rows)
    (hJ : 1 ≤ Adj.rows ∧ 1 ≤ Adj.cols) :
    Res Never (adjmmatrix jm A Adj 1) s fun r s' => (r.rows = Adj.rows ∧ r.cols = Adj.cols) ∧ r.cell 0 0 = 0 ∧ s'.live = s.live := by
  unfold adjmmatrix
  rw [if_pos rfl]
  refine Res.step (if_pos (by omega)) ?_
  refine Res.bind (P := fun r s' => (r.1.rows = Adj.rows ∧ r.1.cols = Adj.cols) ∧ (∃ E, r.2 = some E ∧ E.rows = A.rows) ∧
    s'.live = s.live + (A.rows + 2) ∧ r.1.cell 0 0 = 0) ?_ ?_
  · refine (Res.fill (look := fun (r : Mem2 ℚ × Option (Mem2 ℚ)) i j => r.1.cell i j) (F := fun i j => (0 : ℚ))
      (Good := fun k r s' => (r.1.rows = Adj.rows ∧ r.1.cols = Adj.cols) ∧ (k ≠ 0 → ∃ E, r.2 = some E ∧ E.rows = A.rows) ∧
        s'.live = s.live + k * (A.rows + 2)) ⟨⟨rfl, rfl⟩, fun h => absurd rfl h, by simp⟩ ?_).mono ?_
    · rintro i j ⟨J, o⟩ s1 hi hj ⟨g1, g2, g3⟩
      obtain rfl : i = 0 := by omega
      obtain rfl : j = 0 := by omega
      simp only at g1
      unfold adjEntry
      refine Res.mem ?_
      have hc : ∀ E : Mem2 ℚ, cofacmmatrix A E 0 0 1 = .ok E := fun E => rfl
      refine Res.step (hc _) ?_
      refine Res.bind (det_zero jm _ _ (by simpa using hA)) fun d s2 ⟨hd, hl2⟩ => ?_
      refine Res.step (if_pos (by omega)) (Res.pure ⟨⟨g1, fun _ => ⟨_, rfl, rfl⟩, ?_⟩, ?_, fun k l hk hl hn => by omega⟩)
      · rw [hl2]
        simp only
        omega
      · simp only [hd]
        simp
    · rintro r s1 ⟨⟨g1, g2, g3⟩, hl⟩
      exact ⟨g1, g2 (by omega), by omega, hl 0 0 (by omega) (by omega)⟩
  · rintro ⟨J, o⟩ s1 ⟨g1, ⟨E, rfl, hE⟩, g3, g4⟩
    refine Res.freed (Res.pure ⟨g1, g4, ?_⟩)
    show s1.live - (E.rows + 2) = _
    omega

theorem divided_run {n : Nat} {x : ℚ} (hx : x ≠ 0) (J V : Mem2 ℚ) (hJ : n ≤ J.rows ∧ n ≤ J.cols) (hV : n ≤ V.rows ∧ n ≤ V.cols) :
    Ok (forUp 0 n V fun i V => forUp 0 n V fun j V => do V.put i j (← fdiv (← J.get i j) x)) fun r =>
      (r.rows = V.rows ∧ r.cols = V.cols) ∧ r.toMat n = x⁻¹ • J.toMat n := by
  refine (fill (look := fun (m : Mem2 ℚ) i j => m.cell i j) (F := fun i j => J.cell i j / x)
    (Good := fun m => m.rows = V.rows ∧ m.cols = V.cols) ⟨rfl, rfl⟩ ?_).mono ?_
  · intro i j m hi hj hg
    simp only [Ok.bind_iff, Mem2.Ok_get, Mem2.Ok_put, fdiv, if_neg hx, Ok.ok_iff]
    exact ⟨by omega, by omega, hg, if_pos ⟨trivial, trivial⟩, fun k l hk hl hn => if_neg (by omega)⟩
  · rintro r ⟨hs, hl⟩
    refine ⟨hs, ?_⟩
    ext i j
    rw [Matrix.smul_apply, smul_eq_mul, inv_mul_eq_div]
    exact hl i j i.2 j.2

theorem inver_run (jm : JunkM) {N : Nat} (hN : 1 ≤ N) (A : Mem2 ℚ) (s : Heap) (hr : A.rows = N + 1) (hc : A.cols = N + 1) :
    Res Never (invermmatrix jm A) s fun r s' =>
      (((A.toMat (N + 1)).det = 0 ∧ r = .noInverse ∧ s'.live = s.live) ∨
        ((A.toMat (N + 1)).det ≠ 0 ∧ (∃ V, r = .inverse V ∧ (V.rows = N + 1 ∧ V.cols = N + 1) ∧ V.toMat (N + 1) = (A.toMat (N + 1))⁻¹) ∧
          s'.live = s.live + ((N + 1) * (N + 1) - 1) * (N + 3))) := by
  unfold invermmatrix
  rw [if_pos (by omega), hr]
  refine Res.bind (det_run jm N A s (by omega) (by omega)) fun d s1 ⟨hd, hl1⟩ => ?_
  by_cases h0 : d = 0
  · rw [if_pos h0]
    exact Res.pure (.inl ⟨by rw [← hd, h0], rfl, hl1⟩)
  · rw [if_neg h0]
    refine Res.mem (Res.mem ?_)
    refine Res.bind (adj_run jm hN A _ _ (by omega) (by omega) (by simp only; omega)) fun J s2 ⟨hJ, hv, hl2⟩ => ?_
    simp only at hJ
    refine Res.lift (divided_run h0 J _ (by omega) (by simp only; omega)) fun V ⟨hV, hV2⟩ => ?_
    simp only at hV
    refine Res.freed (Res.freed (Res.pure (.inr ⟨by rw [← hd]; exact h0, ⟨V, rfl, by omega, ?_⟩, ?_⟩)))
    · rw [hV2, hv, Matrix.inv_def, Ring.inverse_eq_inv', hd]
    · show s2.live - (J.rows + 2) - (V.rows + 2) = _
      rw [hl2, hr]
      show s1.live + (N + 3) + (N + 3) + ((N + 1) * (N + 1) - 1) * (N + 3) - (J.rows + 2) - (V.rows + 2) = _
      omega

theorem inver_one (jm : JunkM) (A : Mem2 ℚ) (s : Heap) (hr : A.rows = 1) (hc : A.cols = 1) :
    Res Never (invermmatrix jm A) s fun r s' => s'.live = s.live ∧ ((A.cell 0 0 = 0 ∧ r = .noInverse) ∨
        (A.cell 0 0 ≠ 0 ∧ (∃ V, r = .inverse V ∧ V.cell 0 0 = 0))) := by
  unfold invermmatrix
  rw [if_pos (by omega), hr]
  refine Res.bind (det_run jm 0 A s (by omega) (by omega)) fun d s1 ⟨hd, hl1⟩ => ?_
  have hd : d = A.cell 0 0 := by
    rw [hd]
    show (A.toMat 1).det = _
    rw [Matrix.det_fin_one]; rfl
  by_cases h0 : d = 0
  · rw [if_pos h0]
    exact Res.pure ⟨hl1, .inl ⟨by rw [← hd, h0], rfl⟩⟩
  · rw [if_neg h0]
    refine Res.mem (Res.mem ?_)
    refine Res.bind (adj_one jm A _ _ (by omega) (by omega) (by simp only; omega)) fun J s2 ⟨hJ, hv, hl2⟩ => ?_
    simp only at hJ
    refine Res.lift (divided_run (n := 1) h0 J _ (by omega) (by simp only; omega)) fun V ⟨hV, hV2⟩ => ?_
    simp only at hV
    refine Res.freed (Res.freed (Res.pure ⟨?_, .inr ⟨by rw [← hd]; exact h0, ⟨V, rfl, ?_⟩⟩⟩))
    · show s2.live - (J.rows + 2) - (V.rows + 2) = _
      rw [hl2]
      simp only
      omega
    · have := congrFun (congrFun hV2 0) 0
      rw [Matrix.smul_apply, smul_eq_mul, show J.toMat 1 0 0 = J.cell 0 0 from rfl, hv, mul_zero] at this
      exact this

/-- The matrix product. -/
theorem mul_run (A B : Mem2 ℚ) (C : Mem2 ℚ) (hAB : A.cols = B.rows) (hC : C.rows = A.rows ∧ C.cols = B.cols) :
    Ok (forUp 0 A.rows C fun j C => forUp 0 B.cols C fun i C => do
      let C ← C.put j i 0
      forUp 0 A.cols C fun k C => do
        C.put j i ((← C.get j i) + (← A.get j k) * (← B.get k i))) fun r => (r.rows = A.rows ∧ r.cols = B.cols) ∧
      ∀ i j, i < A.rows → j < B.cols → r.cell i j = ∑ k ∈ Finset.range A.cols, A.cell i k * B.cell k j := by
  refine fill (look := fun (m : Mem2 ℚ) i j => m.cell i j) (F := fun i j => ∑ k ∈ Finset.range A.cols, A.cell i k * B.cell k j)
    (Good := fun m => m.rows = A.rows ∧ m.cols = B.cols) hC ?_
  intro i j m hi hj hg
  rw [Ok.bind_iff, Mem2.Ok_put]
  refine ⟨by omega, ?_⟩
  refine Ok.forUp (P := fun k r => (r.rows = A.rows ∧ r.cols = B.cols) ∧ r.cell i j = ∑ k ∈ Finset.range k, A.cell i k * B.cell k j ∧
    ∀ a b, (a ≠ i ∨ b ≠ j) → r.cell a b = m.cell a b) (Nat.zero_le _) ?_ ?_ ?_
  · exact ⟨hg, by simp, fun a b h => if_neg (by omega)⟩
  · rintro k r _ hk ⟨h1, h2, h3⟩
    simp only [Ok.bind_iff, Mem2.Ok_get, Mem2.Ok_put]
    refine ⟨by omega, by omega, by omega, by omega, h1, ?_, fun a b h => ?_⟩
    · rw [if_pos ⟨trivial, trivial⟩, h2, Finset.sum_range_succ]
    · rw [if_neg (by omega), h3 a b h]
  · rintro r ⟨h1, h2, h3⟩
    exact ⟨h1, h2, fun k l _ _ h => h3 k l h⟩

end WB.cmp.github3
