import Verif.Model.Github2
import Verif.Proof.Cmp

/-!
# The determinant and the inverse of `/repo/test/github2` (helper lemmas)
-/
namespace WB.cmp.github2

/-- The body of the loops of `minor`, for all rows. -/
def minorBody (a : Mem2 ℚ) (q n i j : Nat) (s : Mem2 ℚ × Nat × Nat) : C (Mem2 ℚ × Nat × Nat) :=
  if i = 0 then pure s
  else
    match s with
    | (b, h, k) =>
      if j = q then pure (b, h, k)
      else do
        let b ← b.put h k (← a.get i j)
        let k := k + 1
        if k = n + 3 - 1 then pure (b, h + 1, 0) else pure (b, h, k)

theorem minor_run {n q : Nat} (hn : n + 3 ≤ 100) (hq : q ≤ n + 2) (a b : Mem2 ℚ) (ha : a.rows = 100 ∧ a.cols = 100)
    (hb : b.rows = 100 ∧ b.cols = 100) :
    Ok (minor b a q (n + 3)) fun r => (r.rows = 100 ∧ r.cols = 100) ∧
      r.toMat (n + 2) = (a.toMat (n + 3)).submatrix Fin.succ (Fin.succAbove ⟨q, by omega⟩) := by
  unfold minor
  rw [Ok.bind_iff, forUp_one]
  have := collect2 (N := n + 2) (p := 0) (q := q) (by omega) (by omega) hq a (by omega) (s := b)
    (body := fun i j s => minorBody a q n i j s)
    (fun i j b h k _ _ hc => by
      by_cases h0 : i = 0
      · simp [minorBody, h0]
      · simp [minorBody, h0, hc.resolve_left h0])
    (fun i j b h k _ _ hi hj hk => by
      simp only [minorBody, if_neg hi, if_neg hj]
      refine bind_congr fun x => bind_congr fun b => ?_
      by_cases hw : k + 1 = n + 2
      · rw [if_pos hw, if_pos (by omega)]
      · rw [if_neg hw, if_neg (by omega)]) (by omega)
  have e : (fun (i : Nat) (t : Mem2 ℚ × Nat × Nat) => if i = 0 then (pure t : C _) else minorRow a q (n + 3) i t) =
      fun i t => forUp 0 (n + 3) t fun j s => minorBody a q n i j s := by
    funext i t
    by_cases hi : i = 0
    · simp only [minorBody, if_pos hi, forUp_pure]
    · simp only [minorBody, if_neg hi]
      rfl
  rw [e]
  refine this.mono ?_
  rintro r ⟨s', k, w, rfl, hz, hl⟩
  rw [Ok.pure_iff]
  refine ⟨by omega, ?_⟩
  ext i j
  show s'.cell i j = a.cell (i.succ : Nat) (Fin.succAbove ⟨q, _⟩ j : Fin (n + 3)).val
  rw [hl i j i.2 j.2, succAbove_val]
  rfl

theorem sub_run {N p q : Nat} (hN : 1 ≤ N) (hn : N + 1 ≤ 100) (hp : p ≤ N) (hq : q ≤ N) (a b : Mem2 ℚ) (ha : a.rows = 100 ∧ a.cols = 100)
    (hb : b.rows = 100 ∧ b.cols = 100) :
    Ok (sub a (N + 1) p q b) fun r => (r.rows = 100 ∧ r.cols = 100) ∧
      r.toMat N = (a.toMat (N + 1)).submatrix (Fin.succAbove ⟨p, by omega⟩) (Fin.succAbove ⟨q, by omega⟩) := by
  unfold sub subRow
  rw [Ok.bind_iff]
  refine (collect2 (N := N) (p := p) (q := q) (by omega) hp hq a (by omega) (s := b)
    (fun i j b h k _ _ hc => ?_) (fun i j b h k _ _ hi hj hk => ?_) (by omega)).mono ?_
  · exact if_neg (by omega)
  · simp only [ne_eq, hi, hj, not_false_eq_true, and_self, if_true]
    refine bind_congr fun x => bind_congr fun b => ?_
    by_cases hw : k + 1 = N
    · rw [if_pos hw, if_neg (by omega)]
    · rw [if_neg hw, if_pos (by omega)]
  · rintro r ⟨s', k, w, rfl, hz, hl⟩
    rw [Ok.pure_iff]
    refine ⟨by omega, ?_⟩
    ext i j
    show s'.cell i j = a.cell (Fin.succAbove ⟨p, _⟩ i : Fin (N + 1)).val (Fin.succAbove ⟨q, _⟩ j : Fin (N + 1)).val
    rw [hl i j i.2 j.2, succAbove_val, succAbove_val]

/-- The `k`-th term of the expansion along the first row. -/
def term {n : Nat} (A : Matrix (Fin (n + 3)) (Fin (n + 3)) ℚ) (k : Nat) : ℚ :=
  if h : k < n + 3 then A 0 ⟨k, h⟩ * (-1) ^ k * (A.submatrix Fin.succ (Fin.succAbove ⟨k, h⟩)).det else 0

theorem sum_term {n : Nat} (A : Matrix (Fin (n + 3)) (Fin (n + 3)) ℚ) : ∑ k ∈ Finset.range (n + 3), term A k = A.det := by
  rw [Finset.sum_range, Matrix.det_succ_row_zero]
  refine Finset.sum_congr rfl fun k _ => ?_
  rw [term, dif_pos k.2]
  ring

theorem det_run : ∀ (n : Nat) (junk : Junk2) (a : Mem2 ℚ), n + 1 ≤ 100 → (a.rows = 100 ∧ a.cols = 100) →
    Ok (det junk a (n + 1)) fun d => d = (a.toMat (n + 1)).det
  | 0, junk, a, _, ha => by
    unfold det
    rw [Mem2.Ok_get]
    refine ⟨by omega, ?_⟩
    show _ = (a.toMat 1).det
    rw [Matrix.det_fin_one]; rfl
  | 1, junk, a, _, ha => by
    unfold det
    simp only [Ok.bind_iff, Mem2.Ok_get, Ok.pure_iff]
    refine ⟨by omega, by omega, by omega, by omega, ?_⟩
    show _ = (a.toMat 2).det
    rw [Matrix.det_fin_two]; rfl
  | n + 2, junk, a, hn, ha => by
    unfold det
    rw [Ok.bind_iff]
    refine Ok.forUp (P := fun k r => (r.1.rows = 100 ∧ r.1.cols = 100) ∧ r.2 = ∑ j ∈ Finset.range k, term (a.toMat (n + 3)) j)
      (Nat.zero_le _) ⟨⟨rfl, rfl⟩, by simp⟩ ?_ ?_
    · rintro k ⟨b, sum⟩ _ hk ⟨hb, rfl⟩
      simp only at hb
      simp only [Ok.bind_iff, Mem2.Ok_get, Ok.pure_iff]
      refine (minor_run (by omega) (by omega) a b ha hb).mono fun b' ⟨hb', hm⟩ => ?_
      refine ⟨by omega, (det_run (n + 1) _ b' (by omega) hb').mono fun d hd => ⟨hb', ?_⟩⟩
      rw [Finset.sum_range_succ, hd, hm, term, dif_pos hk]
      rfl
    · rintro ⟨b, sum⟩ ⟨_, h⟩
      rw [Ok.pure_iff]
      exact h.trans (sum_term _)

theorem fill2 {n : Nat} {t : Mem2 ℚ} {F : Nat → Nat → ℚ} {f : Nat → Nat → Mem2 ℚ → C (Mem2 ℚ)} (hn : n ≤ 100) (ht : t.rows = 100 ∧ t.cols = 100)
    (h : ∀ i j b, i < n → j < n → f i j b = b.put i j (F i j)) :
    Ok (forUp 0 n t fun i b => forUp 0 n b fun j b => f i j b) fun r => (r.rows = 100 ∧ r.cols = 100) ∧
      (∀ i j, i < n → j < n → r.cell i j = F i j) ∧ ∀ i j, (n ≤ i ∨ n ≤ j) → r.cell i j = t.cell i j := by
  refine (fill (look := fun (m : Mem2 ℚ) i j => m.cell i j) (F := F) (Good := fun m => (m.rows = 100 ∧ m.cols = 100) ∧
    ∀ i j, (n ≤ i ∨ n ≤ j) → m.cell i j = t.cell i j) ⟨ht, fun _ _ _ => rfl⟩ ?_).mono ?_
  · rintro i j m hi hj ⟨hg1, hg2⟩
    rw [h i j m hi hj, Mem2.Ok_put]
    refine ⟨by omega, ⟨hg1, fun k l hk => ?_⟩, if_pos ⟨rfl, rfl⟩, fun k l hk hl hn => if_neg (by omega)⟩
    show (if _ then _ else _) = _
    rw [if_neg (by omega), hg2 k l hk]
  · rintro r ⟨⟨h1, h2⟩, h3⟩
    exact ⟨h1, h3, h2⟩

theorem cofactor_run (junk : Junk2) {N : Nat} (hN : 1 ≤ N) (hn : N + 1 ≤ 100) (a d : Mem2 ℚ) (x : ℚ)
    (ha : a.rows = 100 ∧ a.cols = 100) (hd : d.rows = 100 ∧ d.cols = 100) (hx : x ≠ 0) :
    Ok (cofactor junk a d (N + 1) x) fun r => (r.rows = 100 ∧ r.cols = 100) ∧
      r.toMat (N + 1) = x⁻¹ • (a.toMat (N + 1)).adjugate ∧ ∀ i j, (N + 1 ≤ i ∨ N + 1 ≤ j) → r.cell i j = d.cell i j := by
  unfold cofactor
  rw [Ok.bind_iff]
  refine (fill (look := fun (m : Mem2 ℚ × Mem2 ℚ) i j => m.2.cell i j)
    (F := fun i j => if h : i < N + 1 ∧ j < N + 1 then (a.toMat (N + 1)).adjugate ⟨j, h.2⟩ ⟨i, h.1⟩ else 0)
    (Good := fun m => (m.1.rows = 100 ∧ m.1.cols = 100) ∧ (m.2.rows = 100 ∧ m.2.cols = 100)) ⟨⟨rfl, rfl⟩, rfl, rfl⟩ ?_).mono ?_
  · rintro i j ⟨b, c⟩ hi hj ⟨hb, hc⟩
    simp only at hb hc
    unfold cofactorEntry
    simp only [Ok.bind_iff, Mem2.Ok_put, Ok.pure_iff]
    refine (sub_run hN hn (by omega : i ≤ N) (by omega : j ≤ N) a b ha hb).mono fun b' ⟨hb', hm⟩ => ?_
    obtain ⟨k, rfl⟩ := Nat.exists_eq_add_of_le' hN
    refine (det_run k _ b' (by omega) hb').mono fun y hy => ?_
    refine ⟨by omega, ⟨hb', hc⟩, ?_, fun k l hk hl hn => if_neg (by omega)⟩
    rw [if_pos ⟨trivial, trivial⟩, dif_pos ⟨hi, hj⟩, adjugate_entry, hy, hm]
  · rintro ⟨b, c⟩ ⟨⟨_, hc⟩, hl⟩
    simp only at hc hl
    unfold transpose
    rw [Ok.bind_iff]
    refine (fill2 (t := localArray (junk [2])) (F := fun i j => c.cell j i) hn ⟨rfl, rfl⟩ fun i j b hi hj => by rw [show c.get j i = .ok (c.cell j i) from if_pos (by omega)]; rfl).mono fun b' ⟨hb', hv, _⟩ => ?_
    refine (fill2 (t := d) (F := fun i j => c.cell j i / x) hn hd fun i j b hi hj => ?_).mono fun r ⟨hr, hv', hk⟩ => ?_
    · rw [show b'.get i j = .ok (b'.cell i j) from if_pos (by omega), hv i j hi hj, C_pure_bind, fdiv, if_neg hx, C_pure_bind]
    · refine ⟨hr, ?_, hk⟩
      ext i j
      rw [Matrix.smul_apply, smul_eq_mul, inv_mul_eq_div]
      have := hl j i j.2 i.2
      rw [dif_pos ⟨j.2, i.2⟩] at this
      exact (hv' i j i.2 j.2).trans (by rw [this])

theorem det_large (junk : Junk2) (a : Mem2 ℚ) {n : Nat} (hn : 101 ≤ n) (ha : a.cols = 100) (x : ℚ) : det junk a n ≠ .ok x := by
  obtain ⟨n, rfl⟩ := Nat.exists_eq_add_of_le' (show 3 ≤ n by omega)
  unfold det
  intro h
  obtain ⟨r, h, _⟩ := bind_ok h
  obtain ⟨⟨b, sum⟩, t', h⟩ := forUp_each h (Nat.le_refl 0) (by omega : 0 < n + 3)
  obtain ⟨b', h, _⟩ := bind_ok h
  obtain ⟨r, h, _⟩ := bind_ok h
  obtain ⟨t, t', h⟩ := forUp_each h (Nat.le_refl 1) (by omega : 1 < n + 3)
  obtain ⟨⟨c, u, v⟩, t', h⟩ := forUp_each h (Nat.zero_le 100) (by omega : 100 < n + 3)
  obtain ⟨y, h, _⟩ := bind_ok h
  rw [Mem2.get, if_neg (by omega)] at h
  cases h

end WB.cmp.github2
