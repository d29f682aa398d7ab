import Mathlib.LinearAlgebra.Matrix.AbsoluteValue
import Verif.Model.Github6
import Verif.Proof.Cmp

/-!
# The determinant and the inverse of `/repo/test/github6` (helper lemmas)
-/
namespace WB.cmp.github6

/-- The step of both loops that collect a submatrix. -/
theorem collect {N M p q : Nat} (hN : 0 < N) (hp : p ≤ N) (hq : q ≤ N) (matrix : Mem Int) (hM : M = N + 1)
    (hm : M * M ≤ matrix.size) (c : Nat → Nat → Prop) [∀ i j, Decidable (c i j)] (hc : ∀ i j, c i j ↔ i ≠ p ∧ j ≠ q) {s : Mem Int}
    (hs : M * M ≤ s.size) :
    Ok (forUp 0 (N + 1) (s, 0, 0) fun i s => forUp 0 (N + 1) s fun j (B, row, col) => do
      let B ← B.put (i * N + j) 0
      if c i j then do
        let B ← B.put (row * N + col) (← matrix.get (i * M + j))
        let col := col + 1
        if col > N - 1 then pure (B, row + 1, 0) else pure (B, row, col)
      else pure (B, row, col)) fun r =>
      ∃ s' k w, r = (s', k, w) ∧ s'.size = s.size ∧
        ∀ a b, a < N → b < N → s'.cell (a * N + b) = matrix.cell (skip p a * M + skip q b) := by
  subst hM
  have sq : ∀ i j, i ≤ N → j ≤ N → i * N + j < (N + 1) * (N + 1) := fun i j hi hj => by
    have := Nat.mul_le_mul_right N hi
    rw [Nat.add_mul, Nat.mul_add]
    omega
  have sq' : ∀ i j, i ≤ N → j ≤ N → i * (N + 1) + j < (N + 1) * (N + 1) := fun i j hi hj => by
    have := Nat.mul_le_mul_right (N + 1) hi
    rw [Nat.add_mul N]
    omega
  have tN : ∀ t, t / N * N + t % N = t := fun t => by rw [Nat.mul_comm]; exact Nat.div_add_mod t N
  refine minor_run (N := N) hN hp hq (σ := Mem Int) (fun s c => s.cell c) (fun i j => matrix.cell (i * (N + 1) + j))
    (fun s' => s'.size = s.size) ?_ ?_ rfl
  · intro i j t s1 hi hj hg hpq ht
    have := sq i j hi hj
    have hn : ¬ c i j := fun h => by
      obtain ⟨h1, h2⟩ := (hc i j).1 h
      exact hpq.elim h1 h2
    simp only [Ok.bind_iff, Mem.Ok_put, if_neg hn, Ok.pure_iff]
    refine ⟨by omega, _, rfl, hg, fun c hc => ?_⟩
    exact if_neg (by omega)
  · intro i j t s1 hi hj hg hip hjq ht htN
    have h1 := sq i j hi hj
    have h2 := sq' i j hi hj
    have h3 : t < (N + 1) * (N + 1) := by
      have := sq i j hi hj
      omega
    simp only [Ok.bind_iff, Mem.Ok_put, if_pos ((hc i j).2 ⟨hip, hjq⟩), Mem.Ok_get, tN]
    refine ⟨by omega, by omega, by omega, ?_⟩
    have l1 : ∀ c, c < t → (if c = t then matrix.cell (i * (N + 1) + j) else if c = i * N + j then 0 else s1.cell c) = s1.cell c :=
      fun c hc => by rw [if_neg (by omega), if_neg (by omega)]
    by_cases hw : t % N + 1 > N - 1
    · rw [if_pos hw, (next_wrap (N := N) (t := t) (by omega) hN).1, (next_wrap (N := N) (t := t) (by omega) hN).2, Ok.pure_iff]
      exact ⟨_, rfl, hg, l1, if_pos rfl⟩
    · rw [if_neg hw, (next_same (N := N) (t := t) (by omega)).1, (next_same (N := N) (t := t) (by omega)).2, Ok.pure_iff]
      exact ⟨_, rfl, hg, l1, if_pos rfl⟩

theorem minor_run {n q : Nat} (hq : q ≤ n + 1) (m : Mem Int) (hm : (n + 2) * (n + 2) ≤ m.size) {s : Mem Int}
    (hs : (n + 2) * (n + 2) ≤ s.size) :
    Ok (minor n m q s) fun r => r.size = s.size ∧
      r.toMat (n + 1) = (m.toMat (n + 2)).submatrix Fin.succ (Fin.succAbove ⟨q, by omega⟩) := by
  have := collect (N := n + 1) (M := n + 2) (p := 0) (q := q) (by omega) (by omega) hq m rfl hm (fun i j => i ≠ 0 ∧ j ≠ q)
    (fun _ _ => Iff.rfl) hs
  unfold minor minorRow
  rw [Ok.bind_iff]
  refine this.mono ?_
  rintro r ⟨s', k, w, rfl, hz, hl⟩
  rw [Ok.pure_iff]
  refine ⟨hz, ?_⟩
  ext a b
  show s'.cell (a * (n + 1) + b) = m.cell ((a.succ : Nat) * (n + 2) + (Fin.succAbove ⟨q, _⟩ b : Fin (n + 2)).val)
  rw [hl a b a.2 b.2, succAbove_val]
  rfl

theorem sub_run {N p q : Nat} (hN : 0 < N) (hp : p ≤ N) (hq : q ≤ N) (m : Mem Int) (hm : (N + 1) * (N + 1) ≤ m.size)
    {s : Mem Int} (hs : (N + 1) * (N + 1) ≤ s.size) :
    Ok (sub (N + 1) m p q s) fun r => r.size = s.size ∧
      r.toMat N = (m.toMat (N + 1)).submatrix (Fin.succAbove ⟨p, by omega⟩) (Fin.succAbove ⟨q, by omega⟩) := by
  have := collect (N := N) (M := N + 1) (p := p) (q := q) hN hp hq m rfl hm (fun i j => p ≠ i ∧ q ≠ j)
    (fun i j => by rw [ne_comm, @ne_comm _ q j]) hs
  unfold sub subRow
  rw [Ok.bind_iff]
  refine this.mono ?_
  rintro r ⟨s', k, w, rfl, hz, hl⟩
  rw [Ok.pure_iff]
  refine ⟨hz, ?_⟩
  ext a b
  show s'.cell (a * N + b) = m.cell ((Fin.succAbove ⟨p, _⟩ a : Fin (N + 1)).val * (N + 1) + (Fin.succAbove ⟨q, _⟩ b : Fin (N + 1)).val)
  rw [hl a b a.2 b.2, succAbove_val, succAbove_val]

open Nat (factorial)

/-- The numbers are so small that there is no overflow. -/
def Small (n : Nat) (A : Matrix (Fin n) (Fin n) Int) (B : Int) : Prop :=
  (∀ i j, |A i j| ≤ B) ∧ (n.factorial : Int) * B ^ n ≤ 2147483647

theorem abs_det_le {n : Nat} {A : Matrix (Fin n) (Fin n) Int} {B : Int} (h : ∀ i j, |A i j| ≤ B) :
    |A.det| ≤ (n.factorial : Int) * B ^ n := by
  have := Matrix.det_le (A := A) (abv := AbsoluteValue.abs) (x := B) h
  simpa using this

theorem Small.sub {n : Nat} {A : Matrix (Fin (n + 2)) (Fin (n + 2)) Int} {B : Int} (hB : 1 ≤ B) (h : Small (n + 2) A B)
    (f g : Fin (n + 1) → Fin (n + 2)) : Small (n + 1) (A.submatrix f g) B := by
  refine ⟨fun i j => h.1 _ _, le_trans ?_ h.2⟩
  rw [Nat.factorial_succ (n + 1), pow_succ B (n + 1)]
  have h1 : (0 : Int) ≤ ((n + 1).factorial : Int) * B ^ (n + 1) := by positivity
  push_cast
  nlinarith [mul_nonneg h1 (by omega : (0 : Int) ≤ B - 1), mul_nonneg (mul_nonneg h1 (by omega : (0 : Int) ≤ (n : Int))) (by omega : (0 : Int) ≤ B)]

/-- The `k`-th term of the expansion along the first row. -/
def term {n : Nat} (A : Matrix (Fin (n + 2)) (Fin (n + 2)) Int) (k : Nat) : Int :=
  if h : k < n + 2 then (-1) ^ k * (A 0 ⟨k, h⟩ * (A.submatrix Fin.succ (Fin.succAbove ⟨k, h⟩)).det) else 0

theorem sum_term {n : Nat} (A : Matrix (Fin (n + 2)) (Fin (n + 2)) Int) : ∑ k ∈ Finset.range (n + 2), term A k = A.det := by
  rw [Finset.sum_range, Matrix.det_succ_row_zero]
  refine Finset.sum_congr rfl fun k _ => ?_
  rw [term, dif_pos k.2, mul_assoc]

theorem abs_term_le {n : Nat} {A : Matrix (Fin (n + 2)) (Fin (n + 2)) Int} {B : Int} (hB : 1 ≤ B) (h : ∀ i j, |A i j| ≤ B) (k : Nat) :
    |term A k| ≤ ((n + 1).factorial : Int) * B ^ (n + 2) := by
  have h1 : (0 : Int) ≤ ((n + 1).factorial : Int) * B ^ (n + 2) := by positivity
  unfold term
  split
  case isTrue hk =>
    have h2 := abs_det_le (A := A.submatrix Fin.succ (Fin.succAbove ⟨k, hk⟩)) (B := B) (fun i j => h _ _)
    rw [abs_mul, abs_pow, abs_neg, abs_one, one_pow, one_mul, abs_mul, pow_succ B (n + 1)]
    calc _ ≤ B * (((n + 1).factorial : Int) * B ^ (n + 1)) := mul_le_mul (h _ _) h2 (abs_nonneg _) (by omega)
      _ = _ := by ring
  · simpa using h1

theorem abs_sum_term_le {n : Nat} {A : Matrix (Fin (n + 2)) (Fin (n + 2)) Int} {B : Int} (hB : 1 ≤ B) (h : ∀ i j, |A i j| ≤ B) {k : Nat}
    (hk : k ≤ n + 2) : |∑ j ∈ Finset.range k, term A j| ≤ ((n + 2).factorial : Int) * B ^ (n + 2) := by
  refine (Finset.abs_sum_le_sum_abs _ _).trans ((Finset.sum_le_card_nsmul _ _ _ fun j _ => abs_term_le hB h j).trans ?_)
  rw [Finset.card_range, nsmul_eq_mul, ← mul_assoc, Nat.factorial_succ (n + 1)]
  refine mul_le_mul_of_nonneg_right ?_ (by positivity)
  push_cast
  refine mul_le_mul_of_nonneg_right ?_ (by positivity)
  exact_mod_cast hk

theorem ov {H : Prop} {x : Int} (h : H → |x| ≤ 2147483647) : |x| ≤ 2147483647 ∨ Ovf H .overflow := by
  by_cases hh : H
  · exact .inl (h hh)
  · exact .inr ⟨rfl, hh⟩

theorem det_run (ji : Junk Int) {B : Int} (hB : 1 ≤ B) : ∀ (n : Nat) (m : Mem Int) (s : Heap), (n + 1) * (n + 1) ≤ m.size →
    Res (Ovf (Small (n + 1) (m.toMat (n + 1)) B)) (determinant ji (n + 1) m) s fun d s' =>
      d = (m.toMat (n + 1)).det ∧ s'.live = s.live + (n + 1).factorial
  | 0, m, s, hm => by
    refine Res.malloc (Or.inl ⟨m.cell 0, _, liftC_run (Mem.get_eq (by omega)), ?_, ?_⟩)
    · show m.cell 0 = (m.toMat 1).det
      rw [Matrix.det_fin_one]; rfl
    · rfl
  | n + 1, m, s, hm => by
    unfold determinant
    refine Res.malloc ?_
    refine Res.bind (P := fun r s' => r.1 = (m.toMat (n + 2)).det ∧ s'.live = s.live + 1 + (n + 2) * (n + 1).factorial) ?_ ?_
    · refine Res.forUp (P := fun k r s' => r.1 = ∑ j ∈ Finset.range k, term (m.toMat (n + 2)) j ∧ r.2.1 = (-1) ^ k ∧
        r.2.2.size = (n + 2) * (n + 2) ∧ s'.live = s.live + 1 + k * (n + 1).factorial) ?_ ?_ ?_
      · exact ⟨by simp, rfl, rfl, by simp⟩
      · rintro k ⟨det, sign, M⟩ s1 hk ⟨rfl, rfl, hM, hlive⟩
        simp only at hM
        refine Res.lift (minor_run (q := k) (by omega) m hm (by rw [hM])) fun M' ⟨hM', hmat⟩ => ?_
        refine Res.bind (Res.weaken ?_ (det_run ji hB n M' s1 (by
          rw [hM', hM]
          exact Nat.mul_le_mul (by omega) (by omega)))) fun d s2 ⟨hd, hl2⟩ => ?_
        · rintro e ⟨rfl, h⟩
          refine ⟨rfl, fun h' => h ?_⟩
          rw [hmat]
          exact h'.sub hB _ _
        · have ht : (-1) ^ k * (m.cell k * d) = term (m.toMat (n + 2)) k := by
            rw [term, dif_pos hk, hd, hmat]
            congr 2
            show _ = m.cell ((0 : Fin (n + 2)).val * (n + 2) + k)
            simp
          have ha : |m.cell k * d| = |term (m.toMat (n + 2)) k| := by
            rw [← ht, abs_mul ((-1) ^ k), abs_pow, abs_neg, abs_one, one_pow, one_mul]
          have hb : Small (n + 2) (m.toMat (n + 2)) B → |term (m.toMat (n + 2)) k| ≤ 2147483647 := fun h => by
            refine (abs_term_le hB h.1 k).trans (le_trans ?_ h.2)
            refine mul_le_mul_of_nonneg_right ?_ (by positivity)
            exact_mod_cast Nat.factorial_le (by omega)
          refine Res.step (Mem.get_eq (by nlinarith)) ?_
          refine Res.int32 (ov fun h => ha ▸ hb h) ?_
          refine Res.int32 (ov fun h => ht ▸ hb h) ?_
          rw [ht]
          refine Res.int32 (ov fun h => ?_) ?_
          · rw [← Finset.sum_range_succ]
            exact (abs_sum_term_le hB h.1 (by omega)).trans h.2
          · refine Res.pure ⟨(Finset.sum_range_succ _ _).symm, ?_, ?_, ?_⟩
            · simp only; ring
            · simp only; omega
            · rw [hl2, hlive, Nat.succ_mul]; omega
      · rintro ⟨det, sign, M⟩ s1 ⟨h1, _, _, h4⟩
        exact ⟨h1.trans (sum_term _), h4⟩
    · rintro ⟨det, sign, M⟩ s1 ⟨h1, h2⟩
      refine Res.free (Res.pure ⟨h1, ?_⟩)
      show s1.live - 1 = s.live + (n + 2).factorial
      rw [Nat.factorial_succ (n + 1), h2]
      show s.live + 1 + (n + 2) * (n + 1).factorial - 1 = s.live + (n + 2) * (n + 1).factorial
      omega

theorem transposed_run {n : Nat} {IN t : Mem ℚ} (h1 : n * n ≤ IN.size) (h2 : n * n ≤ t.size) :
    Ok (transposed n IN t) fun r => r.size = t.size ∧ r.toMat n = (IN.toMat n).transpose := by
  refine (fill (look := fun (m : Mem ℚ) i j => m.cell (i * n + j)) (F := fun i j => IN.cell (j * n + i))
    (Good := fun m => m.size = t.size) rfl ?_).mono ?_
  · intro i j m hi hj hg
    have := idx_lt hi hj
    have := idx_lt hj hi
    simp only [Ok.bind_iff, Mem.Ok_get, Mem.Ok_put]
    exact ⟨by omega, by omega, hg, if_pos trivial, fun k l hk hl hn => if_neg (idx_ne hj hl hn)⟩
  · rintro r ⟨hs, hl⟩
    refine ⟨hs, ?_⟩
    ext i j
    exact hl i j i.2 j.2

theorem divided_run {n : Nat} {det : Int} {IN inv t : Mem ℚ} (h1 : n * n ≤ IN.size) (h2 : n * n ≤ inv.size) (h3 : n * n ≤ t.size)
    (hd : det ≠ 0) :
    Ok (divided n t det (IN, inv)) fun r => r.1.size = IN.size ∧ r.1.toMat n = (det : ℚ)⁻¹ • t.toMat n := by
  have hq : (det : ℚ) ≠ 0 := by exact_mod_cast hd
  refine (fill (look := fun (m : Mem ℚ × Mem ℚ) i j => m.1.cell (i * n + j)) (F := fun i j => t.cell (i * n + j) / det)
    (Good := fun m => m.1.size = IN.size ∧ m.2.size = inv.size) ⟨rfl, rfl⟩ ?_).mono ?_
  · rintro i j ⟨m, v⟩ hi hj ⟨hg1, hg2⟩
    simp only at hg1 hg2
    have := idx_lt hi hj
    simp only [Ok.bind_iff, Mem.Ok_get, Mem.Ok_put, fdiv, if_neg hq, Ok.ok_iff, Ok.pure_iff, if_true]
    exact ⟨by omega, by omega, by omega, by omega, ⟨hg1, hg2⟩, trivial, fun k l hk hl hn => if_neg (idx_ne hj hl hn)⟩
  · rintro r ⟨⟨hs, _⟩, hl⟩
    refine ⟨hs, ?_⟩
    ext i j
    rw [Matrix.smul_apply, smul_eq_mul, inv_mul_eq_div]
    exact hl i j i.2 j.2

theorem divided_zero {n : Nat} {IN inv t : Mem ℚ} (h3 : 0 < t.size) : divided (n + 1) t 0 (IN, inv) = .error .divZero := by
  refine forUp_err (forUp_err ?_)
  simp only [Nat.zero_mul, Nat.zero_add]
  rw [Mem.get_eq h3]
  rfl

/-- The faults of the inverse: an overflow if the numbers are not small, a division by zero if the determinant is 0. -/
def Bad (H : Prop) (d : Int) (e : Fault) : Prop := Ovf H e ∨ e = .divZero ∧ d = 0

theorem toRat_inv {n : Nat} (A : Matrix (Fin n) (Fin n) Int) (hd : A.det ≠ 0) :
    (toRat A)⁻¹ = (A.det : ℚ)⁻¹ • toRat A.adjugate := by
  have h1 : (toRat A).det = (A.det : ℚ) := (RingHom.map_det (Int.castRingHom ℚ) A).symm
  have h2 : (toRat A).adjugate = toRat A.adjugate := (RingHom.map_adjugate (Int.castRingHom ℚ) A).symm
  rw [Matrix.inv_def, h1, h2, Ring.inverse_eq_inv']

theorem abs_small {n : Nat} {A : Matrix (Fin n) (Fin n) Int} {B : Int} (h : Small n A B) : |A.det| ≤ 2147483647 :=
  (abs_det_le h.1).trans h.2

theorem cofactor_run (ji : Junk Int) (jf : Junk ℚ) {B : Int} (hB : 1 ≤ B) (n : Nat) (m : Mem Int) (IN : Mem ℚ) (s : Heap)
    (hm : (n + 2) * (n + 2) ≤ m.size) (hi : (n + 2) * (n + 2) ≤ IN.size) :
    Res (Bad (Small (n + 2) (m.toMat (n + 2)) B) (m.toMat (n + 2)).det) (cofactor ji jf m (n + 2) IN) s fun r s' =>
      (m.toMat (n + 2)).det ≠ 0 ∧ r.size = IN.size ∧ r.toMat (n + 2) = (toRat (m.toMat (n + 2)))⁻¹ ∧
        s'.live = s.live + (n + 3).factorial := by
  generalize hH : Small (n + 2) (m.toMat (n + 2)) B = H
  unfold cofactor
  refine Res.malloc (Res.malloc ?_)
  refine Res.bind (P := fun r s' => r.1.size = IN.size ∧
    (∀ i j : Fin (n + 2), r.1.cell (i * (n + 2) + j) = ((m.toMat (n + 2)).adjugate j i : ℚ)) ∧
    s'.live = s.live + 2 + (n + 2) * (n + 2) * (n + 1).factorial) ?_ ?_
  · refine (Res.fill (look := fun (r : Mem ℚ × Mem Int × Mem Int) i j => r.1.cell (i * (n + 2) + j))
      (F := fun i j => if h : i < n + 2 ∧ j < n + 2 then ((m.toMat (n + 2)).adjugate ⟨j, h.2⟩ ⟨i, h.1⟩ : ℚ) else 0)
      (Good := fun k r s' => r.1.size = IN.size ∧ r.2.1.size = (n + 2) * (n + 2) ∧ r.2.2.size = (n + 2) * (n + 2) ∧
        s'.live = s.live + 2 + k * (n + 1).factorial) ⟨rfl, rfl, rfl, by simp⟩ ?_).mono ?_
    · rintro i j ⟨I, f, t⟩ s1 hi' hj' ⟨g1, g2, g3, g4⟩
      simp only at g1 g2 g3
      have hlt := idx_lt hi' hj'
      unfold cofactorEntry
      refine Res.lift (sub_run (N := n + 1) (p := i) (q := j) (by omega) (by omega) (by omega) m hm (by rw [g3])) fun t' ⟨ht', hmat⟩ => ?_
      refine Res.bind (Res.weaken ?_ (det_run ji hB n t' s1 (by
        rw [ht', g3]
        exact Nat.mul_le_mul (by omega) (by omega)))) fun d s2 ⟨hd, hl2⟩ => ?_
      · rintro e ⟨rfl, h⟩
        refine .inl ⟨rfl, fun h' => h ?_⟩
        rw [hmat]
        rw [← hH] at h'
        exact h'.sub hB _ _
      · have hadj : (m.toMat (n + 2)).adjugate ⟨j, hj'⟩ ⟨i, hi'⟩ = (-1) ^ (i + j) * d := by
          rw [adjugate_entry, hd, hmat]
        have hab : H → |(-1) ^ (i + j) * d| ≤ 2147483647 := fun h => by
          rw [abs_mul, abs_pow, abs_neg, abs_one, one_pow, one_mul, hd, hmat]
          rw [← hH] at h
          exact abs_small (h.sub hB _ _)
        by_cases hc : -2147483648 ≤ (-1) ^ (i + j) * d ∧ (-1) ^ (i + j) * d ≤ 2147483647
        · refine Res.lift (P := fun f' => f'.size = f.size ∧ f'.cell (i * (n + 2) + j) = (-1) ^ (i + j) * d) ?_ ?_
          · simp only [Ok.bind_iff, int32, if_pos hc, Ok.ok_iff, Mem.Ok_put]
            exact ⟨by omega, trivial, if_pos trivial⟩
          · rintro f' ⟨hf1, hf2⟩
            refine Res.lift (P := fun I' => I'.size = I.size ∧ I'.cell (i * (n + 2) + j) = (((-1) ^ (i + j) * d : Int) : ℚ) ∧
              ∀ k l, k < n + 2 → l < n + 2 → (k ≠ i ∨ l ≠ j) → I'.cell (k * (n + 2) + l) = I.cell (k * (n + 2) + l)) ?_ ?_
            · simp only [Ok.bind_iff, Mem.Ok_get, Mem.Ok_put, if_true, hf2]
              exact ⟨by omega, by omega, trivial, trivial, fun k l _ hl hn => if_neg (idx_ne hj' hl hn)⟩
            · rintro I' ⟨hI1, hI2, hI3⟩
              refine Res.pure ⟨⟨by simp only; omega, by simp only; omega, by simp only; omega, ?_⟩, ?_, hI3⟩
              · rw [hl2, g4, Nat.succ_mul]; omega
              · simp only
                rw [dif_pos ⟨hi', hj'⟩, hI2, hadj]
        · refine .inr ⟨.overflow, .inl ⟨rfl, fun h => hc ?_⟩, HM_bind_err (liftC_err ?_)⟩
          · have := abs_le.1 (hab h)
            omega
          · rw [int32, if_neg hc]; rfl
    · rintro ⟨I, f, t⟩ s1 ⟨⟨g1, _, _, g4⟩, hl⟩
      refine ⟨g1, fun i j => ?_, g4⟩
      have := hl i j i.2 j.2
      simp only at this
      rw [this, dif_pos ⟨i.2, j.2⟩]
  · rintro ⟨I, f, t⟩ s1 ⟨g1, g2, g3⟩
    simp only at g1 g2
    refine Res.bind (P := fun r s' => (m.toMat (n + 2)).det ≠ 0 ∧ r.size = IN.size ∧ r.toMat (n + 2) = (toRat (m.toMat (n + 2)))⁻¹ ∧
        s'.live = s.live + 2 + (n + 2) * (n + 2) * (n + 1).factorial + (n + 2).factorial) ?_ ?_
    · unfold transpose
      refine Res.malloc (Res.malloc ?_)
      refine Res.lift (transposed_run (by omega) (Nat.le_refl _)) fun t' ⟨ht1, ht2⟩ => ?_
      simp only at ht1
      refine Res.bind (Res.weaken (fun e he => .inl (hH ▸ he)) (det_run ji hB (n + 1) m _ hm)) fun d s2 ⟨hd, hl2⟩ => ?_
      by_cases h0 : d = 0
      · subst h0
        refine .inr ⟨.divZero, .inr ⟨rfl, hd.symm⟩, HM_bind_err (liftC_err (divided_zero ?_))⟩
        rw [ht1]
        exact Nat.mul_pos (by omega) (by omega)
      · refine Res.lift (divided_run (by omega) (Nat.le_refl _) (by omega) h0) fun r ⟨hr1, hr2⟩ => ?_
        refine Res.free (Res.free (Res.pure ⟨hd ▸ h0, hr1.trans g1, ?_, ?_⟩))
        · rw [hr2, ht2, toRat_inv _ (hd ▸ h0), hd]
          congr 1
          ext i j
          exact g2 j i
        · show s2.live - 1 - 1 = _
          rw [hl2]
          show s1.live + 1 + 1 + (n + 2).factorial - 1 - 1 = _
          omega
    · rintro r s2 ⟨h1, h2, h3, h4⟩
      refine Res.free (Res.free (Res.pure ⟨h1, h2, h3, ?_⟩))
      show s2.live - 1 - 1 = _
      have e2 : (n + 2).factorial = (n + 2) * (n + 1).factorial := Nat.factorial_succ (n + 1)
      rw [h4, Nat.factorial_succ (n + 2), e2]
      have : (n + 3) * ((n + 2) * (n + 1).factorial) = (n + 2) * (n + 2) * (n + 1).factorial + (n + 2) * (n + 1).factorial := by ring
      show _ = s.live + (n + 3) * ((n + 2) * (n + 1).factorial)
      omega

theorem order1_run (ji : Junk Int) (jf : Junk ℚ) (m : Mem Int) (IN : Mem ℚ) (s : Heap) (hm : 1 ≤ m.size) (hi : 1 ≤ IN.size) :
    Res (fun e => e = .divZero ∧ m.cell 0 = 0) (cofactor ji jf m 1 IN) s fun r s' =>
      m.cell 0 ≠ 0 ∧ r.size = IN.size ∧ r.cell 0 = 0 ∧ s'.live = s.live + 1 := by
  have h1 : ∀ (t : Mem Int), t.size = 1 → Ok (sub 1 m 0 0 t) fun r => r.size = t.size := fun t ht => by
    unfold sub subRow
    simp [forUp, ht]
  unfold cofactor
  refine Res.malloc (Res.malloc ?_)
  refine Res.bind (P := fun r s' => r.1.size = IN.size ∧ r.1.cell 0 = 0 ∧ s'.live = s.live + 2) ?_ ?_
  · refine (Res.fill (look := fun (r : Mem ℚ × Mem Int × Mem Int) i j => r.1.cell (i * 1 + j)) (F := fun i j => (0 : ℚ))
      (Good := fun k r s' => r.1.size = IN.size ∧ r.2.1.size = 1 ∧ r.2.2.size = 1 ∧ s'.live = s.live + 2) ⟨rfl, rfl, rfl, rfl⟩ ?_).mono ?_
    · rintro i j ⟨I, f, t⟩ s1 hi' hj' ⟨g1, g2, g3, g4⟩
      obtain rfl : i = 0 := by omega
      obtain rfl : j = 0 := by omega
      simp only at g1 g2 g3
      unfold cofactorEntry
      refine Res.lift (h1 t g3) fun t' ht' => ?_
      refine Res.bind (P := fun d s' => d = 0 ∧ s'.live = s1.live) (.inl ⟨0, _, rfl, rfl, rfl⟩) ?_
      rintro d s2 ⟨rfl, hl2⟩
      refine Res.lift (P := fun f' : Mem Int => f'.size = 1 ∧ f'.cell 0 = 0) (by simp [int32, g2]) fun f' ⟨hf1, hf2⟩ => ?_
      refine Res.lift (P := fun I' : Mem ℚ => I'.size = I.size ∧ I'.cell 0 = 0) (by simp [hf1, hf2]; omega) fun I' ⟨hI1, hI2⟩ => ?_
      exact Res.pure ⟨⟨by simp only; omega, hf1, ht'.trans g3, hl2.trans g4⟩, hI2, fun k l hk hl hn => by omega⟩
    · rintro r s1 ⟨⟨g1, _, _, g4⟩, hl⟩
      exact ⟨g1, hl 0 0 (by omega) (by omega), g4⟩
  · rintro ⟨I, f, t⟩ s1 ⟨g1, g2, g3⟩
    simp only at g1 g2
    refine Res.bind (P := fun r s' => m.cell 0 ≠ 0 ∧ r.size = IN.size ∧ r.cell 0 = 0 ∧ s'.live = s.live + 3) ?_ ?_
    · unfold transpose
      refine Res.malloc (Res.malloc ?_)
      refine Res.lift (transposed_run (by omega) (Nat.le_refl _)) fun t' ⟨ht1, ht2⟩ => ?_
      simp only at ht1
      refine Res.bind (P := fun d s' => d = m.cell 0 ∧ s'.live = s1.live + 3) ?_ ?_
      · refine Res.malloc (Or.inl ⟨m.cell 0, _, liftC_run (Mem.get_eq (by omega)), rfl, rfl⟩)
      · rintro d s2 ⟨rfl, hl⟩
        by_cases h0 : m.cell 0 = 0
        · exact .inr ⟨.divZero, ⟨rfl, h0⟩, HM_bind_err (liftC_err (by rw [h0]; exact divided_zero (by omega)))⟩
        · refine Res.lift (divided_run (by omega) (Nat.le_refl _) (by omega) h0) fun r ⟨hr1, hr2⟩ => ?_
          refine Res.free (Res.free (Res.pure ⟨h0, hr1.trans g1, ?_, ?_⟩))
          · have := congrFun (congrFun hr2 0) 0
            rw [ht2] at this
            simp only [Matrix.smul_apply, Matrix.transpose_apply, smul_eq_mul] at this
            rw [show (I.toMat 1 0 0 : ℚ) = 0 from g2, mul_zero] at this
            exact this
          · show s2.live - 1 - 1 = _
            omega
    · rintro r s2 ⟨h1, h2, h3, h4⟩
      refine Res.free (Res.free (Res.pure ⟨h1, h2, h3, ?_⟩))
      show s2.live - 1 - 1 = _
      omega

end WB.cmp.github6
