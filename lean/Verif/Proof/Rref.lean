import Verif.SpecM4riEch
import Mathlib.LinearAlgebra.Matrix.NonsingularInverse

/-!
# The reduced row echelon form is unique (helper lemmas)
-/
namespace WB.m4w

variable {r c : Nat}

theorem sum_first {k : Nat} (hk : k ≤ r) (f : Fin r → ZMod 2) (hf : ∀ a : Fin r, k ≤ a → f a = 0) : ∑ a, f a = ∑ i : Fin k, f (Fin.castLE hk i) := by
  symm
  refine Finset.sum_bij_ne_zero (fun i _ _ => Fin.castLE hk i) (fun _ _ _ => Finset.mem_univ _) (fun i _ _ j _ _ h => Fin.castLE_injective hk h) ?_ (fun _ _ _ => rfl)
  intro b _ hb
  have hlt : (b : Nat) < k := by
    by_contra h
    exact hb (hf b (by omega))
  exact ⟨⟨b, hlt⟩, Finset.mem_univ _, by simpa using hb, rfl⟩

/-- Each column is the sum of pivot columns that its entries name. -/
theorem rref_column {R U : Matrix (Fin r) (Fin c) (ZMod 2)} {V : Matrix (Fin r) (Fin r) (ZMod 2)} {k : Nat} (hk : k ≤ r) {p : Fin k → Fin c}
    (h1 : ∀ i a, R a (p i) = if a = Fin.castLE hk i then 1 else 0) (h3 : ∀ a : Fin r, k ≤ a → ∀ j, R a j = 0) (hU : U = V * R) (a : Fin r) (j : Fin c) :
    U a j = ∑ i : Fin k, R (Fin.castLE hk i) j * U a (p i) := by
  have e : ∀ i, U a (p i) = V a (Fin.castLE hk i) := fun i => by
    rw [hU, Matrix.mul_apply, Finset.sum_eq_single (Fin.castLE hk i)]
    · rw [h1, if_pos rfl, mul_one]
    · intro b _ hb; rw [h1, if_neg hb, mul_zero]
    · intro h; exact absurd (Finset.mem_univ _) h
  rw [hU, Matrix.mul_apply, sum_first hk _ fun b hb => by rw [h3 b hb, mul_zero]]
  refine Finset.sum_congr rfl fun i _ => ?_
  rw [← hU, e, mul_comm]

theorem rref_pivots {R S : Matrix (Fin r) (Fin c) (ZMod 2)} {V : Matrix (Fin r) (Fin r) (ZMod 2)} (hS : S = V * R) {k k' : Nat} (hk : k ≤ r) (hk' : k' ≤ r)
    {p : Fin k → Fin c} {q : Fin k' → Fin c} (h1 : ∀ i a, R a (p i) = if a = Fin.castLE hk i then 1 else 0)
    (h2 : ∀ i, ∀ j < p i, R (Fin.castLE hk i) j = 0) (h3 : ∀ a : Fin r, k ≤ a → ∀ j, R a j = 0)
    (g1 : ∀ i a, S a (q i) = if a = Fin.castLE hk' i then 1 else 0) (g2 : ∀ i, ∀ j < q i, S (Fin.castLE hk' i) j = 0) : Set.range q ⊆ Set.range p := by
  rintro _ ⟨t, rfl⟩
  by_contra hn
  have h := rref_column hk h1 h3 hS (Fin.castLE hk' t) (q t)
  rw [g1, if_pos rfl, Finset.sum_eq_zero] at h
  · exact absurd h (by decide)
  · intro i _
    rcases lt_trichotomy (p i) (q t) with hlt | heq | hgt
    · rw [g2 t _ hlt, mul_zero]
    · exact absurd ⟨i, heq⟩ hn
    · rw [h2 i _ hgt, zero_mul]

theorem IsRref.unique {R S : Matrix (Fin r) (Fin c) (ZMod 2)} {V : Matrix (Fin r) (Fin r) (ZMod 2)} (hV : IsUnit V) (hS : S = V * R) {k k' : Nat} (hR : IsRref R k)
    (hS' : IsRref S k') : k = k' ∧ R = S := by
  obtain ⟨hk, p, hp, h1, h2, h3⟩ := hR
  obtain ⟨hk', q, hq, g1, g2, g3⟩ := hS'
  obtain ⟨V', hV'⟩ : ∃ V', V' * V = 1 := by
    obtain ⟨u, rfl⟩ := hV
    exact ⟨↑u⁻¹, u.inv_mul⟩
  have hR' : R = V' * S := by rw [hS, ← Matrix.mul_assoc, hV', Matrix.one_mul]
  have hrange : Set.range p = Set.range q := Set.Subset.antisymm (rref_pivots hR' hk' hk g1 g2 g3 h1 h2) (rref_pivots hS hk hk' h1 h2 h3 g1 g2)
  have hkk : k = k' := by
    have e1 := Set.ncard_range_of_injective hp.injective
    have e2 := Set.ncard_range_of_injective hq.injective
    rw [hrange, e2] at e1
    simpa using e1.symm
  subst hkk
  have hpq : p = q := (StrictMono.range_inj hp hq).1 hrange
  subst hpq
  refine ⟨rfl, ?_⟩
  ext a j
  rw [rref_column hk h1 h3 hS a j, rref_column hk h1 h3 (Matrix.one_mul R).symm a j]
  exact Finset.sum_congr rfl fun i _ => by rw [h1, g1]

theorem IsRref.rank {R : Matrix (Fin r) (Fin c) (ZMod 2)} {k : Nat} (h : IsRref R k) : R.rank = k := by
  obtain ⟨hk, p, hp, h1, h2, h3⟩ := h
  let E : Matrix (Fin r) (Fin k) (ZMod 2) := Matrix.of fun a i => if a = Fin.castLE hk i then 1 else 0
  let F : Matrix (Fin c) (Fin k) (ZMod 2) := Matrix.of fun j i => if j = p i then 1 else 0
  have hE : R * F = E := by
    ext a i
    rw [Matrix.mul_apply, Finset.sum_eq_single (p i)]
    · show R a (p i) * (if p i = p i then 1 else 0) = _
      rw [if_pos rfl, mul_one, h1]; rfl
    · intro b _ hb
      show R a b * (if b = p i then 1 else 0) = 0
      rw [if_neg hb, mul_zero]
    · intro h; exact absurd (Finset.mem_univ _) h
  have hI : E.transpose * E = 1 := by
    ext i j
    rw [Matrix.mul_apply, Finset.sum_eq_single (Fin.castLE hk i)]
    · show (if Fin.castLE hk i = Fin.castLE hk i then (1 : ZMod 2) else 0) * (if Fin.castLE hk i = Fin.castLE hk j then 1 else 0) = _
      rw [if_pos rfl, one_mul, Matrix.one_apply]
      simp [Fin.ext_iff]
    · intro b _ hb
      show (if b = Fin.castLE hk i then (1 : ZMod 2) else 0) * _ = 0
      rw [if_neg hb, zero_mul]
    · intro h; exact absurd (Finset.mem_univ _) h
  have hR : R = E * (E.transpose * R) := by
    ext a j
    have e : ∀ i, (E.transpose * R) i j = R (Fin.castLE hk i) j := fun i => by
      rw [Matrix.mul_apply, Finset.sum_eq_single (Fin.castLE hk i)]
      · show (if Fin.castLE hk i = Fin.castLE hk i then (1 : ZMod 2) else 0) * _ = _
        rw [if_pos rfl, one_mul]
      · intro b _ hb
        show (if b = Fin.castLE hk i then (1 : ZMod 2) else 0) * _ = 0
        rw [if_neg hb, zero_mul]
      · intro h; exact absurd (Finset.mem_univ _) h
    rw [rref_column hk h1 h3 (Matrix.one_mul R).symm a j, Matrix.mul_apply]
    refine Finset.sum_congr rfl fun i _ => ?_
    rw [e, h1, mul_comm]
    rfl
  refine le_antisymm ?_ ?_
  · rw [hR]
    exact (Matrix.rank_mul_le_left _ _).trans (Matrix.rank_le_width _)
  · have e1 : E.rank ≤ R.rank := by rw [← hE]; exact Matrix.rank_mul_le_left _ _
    have e2 : (1 : Matrix (Fin k) (Fin k) (ZMod 2)).rank ≤ E.rank := by rw [← hI]; exact Matrix.rank_mul_le_right _ _
    rw [Matrix.rank_one, Fintype.card_fin] at e2
    exact e2.trans e1

/-- The first columns of a matrix in reduced row echelon form. -/
theorem IsRref.cols {R : Matrix (Fin r) (Fin c) (ZMod 2)} {k n : Nat} (h : IsRref R k) (hn : n ≤ c) : ∃ k', IsRref (R.submatrix id (Fin.castLE hn)) k' := by
  obtain ⟨hk, p, hp, h1, h2, h3⟩ := h
  have hex : ∃ t, t = k ∨ ∃ ht : t < k, n ≤ p ⟨t, ht⟩ := ⟨k, .inl rfl⟩
  obtain ⟨k', hk', hmin⟩ : ∃ k', (k' = k ∨ ∃ ht : k' < k, n ≤ p ⟨k', ht⟩) ∧ ∀ t < k', ¬ (t = k ∨ ∃ ht : t < k, n ≤ p ⟨t, ht⟩) :=
    ⟨Nat.find hex, Nat.find_spec hex, fun t ht => Nat.find_min hex ht⟩
  have hle : k' ≤ k := by rcases hk' with h | ⟨h, _⟩ <;> omega
  have hlt : ∀ i : Fin k', (p ⟨i, by omega⟩ : Nat) < n := fun i => by
    by_contra hc
    exact hmin i i.2 (.inr ⟨by omega, by omega⟩)
  refine ⟨k', hle.trans hk, fun i => ⟨p ⟨i, by omega⟩, hlt i⟩, fun i j hij => hp (show (⟨i, _⟩ : Fin k) < ⟨j, _⟩ from hij), ?_, ?_, ?_⟩
  · intro i a
    exact h1 ⟨i, by omega⟩ a
  · intro i j hj
    exact h2 ⟨i, by omega⟩ _ hj
  · intro a ha j
    show R a (Fin.castLE hn j) = 0
    by_cases hak : k ≤ a
    · exact h3 a hak _
    · rcases hk' with h | ⟨ht, hpt⟩
      · omega
      · refine h2 ⟨a, by omega⟩ _ ?_
        have : p ⟨k', ht⟩ ≤ p ⟨a, by omega⟩ := hp.monotone (show (⟨k', ht⟩ : Fin k) ≤ ⟨a, by omega⟩ from ha)
        have hj := j.2
        show (j : Nat) < p ⟨a, by omega⟩
        have : (p ⟨k', ht⟩ : Nat) ≤ p ⟨a, by omega⟩ := this
        omega

end WB.m4w
