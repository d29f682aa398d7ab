import Verif.Prop.C76

/-!
# C77 — every invertible matrix can be generated (false)
-/
namespace WB.ntl

/-- C77, full statement: for every invertible matrix there are random bits for which `RandMat::init` returns it. -/
def C77_statement : Prop :=
  ∀ (stale : Nat → Nat → ZMod 2) (self : RandMat) (n : Nat) (A : Matrix (Fin n) (Fin n) (ZMod 2)), IsUnit A →
    ∃ (fuel : Nat) (s s' : Rnd) (r : RandMat), RandMat.init stale fuel self n true s = .ok (r, s') ∧ r.mat = ⟨n, n, A⟩

variable (stale : Nat → Nat → ZMod 2) (self : RandMat) {n : Nat} (s : Rnd)

/-- C77, what holds instead: the matrices that `RandMat::init` can return are exactly the invertible matrices none of whose rows
has exactly one 1; for those, one attempt is enough, at any position of the random sequence. -/
theorem C77_range_partial (A : Matrix (Fin n) (Fin n) (ZMod 2)) (p : Nat) :
    (∃ (fuel : Nat) (s s' : Rnd) (r : RandMat), RandMat.init stale fuel self n true s = .ok (r, s') ∧ r.mat = ⟨n, n, A⟩) ↔
      IsUnit A ∧ NoUnitRow A ∧ ∀ fuel, 1 ≤ fuel → ∃ bits s' r, RandMat.init stale fuel self n true ⟨bits, p⟩ = .ok (r, s') ∧
        r.mat = ⟨n, n, A⟩ := by
  constructor
  · rintro ⟨fuel, s, s', r, e, hr⟩
    rcases init_run stale fuel self n s with ⟨r', s2, e', B, h1, h2, rfl⟩ | h
    · rw [e] at e'
      cases e'
      have := mat_inj hr
      subst this
      refine ⟨h2, h1, fun f hf => ?_⟩
      obtain ⟨bits, a, s', e, rfl⟩ := (init_can stale hf self h1 h2).exists_bits p
      exact ⟨bits, s', _, e, rfl⟩
    · rw [e] at h; cases h
  · rintro ⟨-, -, h⟩
    obtain ⟨bits, s', r, e⟩ := h 1 (Nat.le_refl _)
    exact ⟨1, _, s', r, e⟩

/-- C77: the same for the generators of `MatrixUtils.cpp`; the vector can be any vector. -/
theorem C77_affine_range_partial (x y : MatGF2) (A : Matrix (Fin n) (Fin n) (ZMod 2)) (v : Fin n → ZMod 2) :
    (∃ (fuel : Nat) (s s' : Rnd) (Y : MatGF2), genRandomAffineMatrix stale fuel x y n s = .ok ((⟨n, n, A⟩, Y, ⟨n, v⟩), s')) ↔
      IsUnit A ∧ NoUnitRow A := by
  constructor
  · rintro ⟨fuel, s, s', Y, e⟩
    rcases genAffine_run stale fuel x y n s with ⟨r', s2, e', B, w, h1, h2, rfl⟩ | h
    · rw [e] at e'
      injection e' with e'
      injection e' with e' _
      injection e' with e' _
      have := mat_inj e'
      subst this
      exact ⟨h2, h1⟩
    · rw [e] at h; cases h
  · rintro ⟨h2, h1⟩
    obtain ⟨bits, a, s', e, rfl⟩ := (genAffine_can stale (Nat.le_refl 1) x y h1 h2 v).exists_bits 0
    exact ⟨1, _, s', _, e⟩

/-- C77: the same for `genRandomInvMatrix`. -/
theorem C77_inv_range_partial (x y : MatGF2) (A : Matrix (Fin n) (Fin n) (ZMod 2)) :
    (∃ (fuel : Nat) (s s' : Rnd) (Y : MatGF2), genRandomInvMatrix stale fuel x y n s = .ok ((⟨n, n, A⟩, Y), s')) ↔
      IsUnit A ∧ NoUnitRow A := by
  constructor
  · rintro ⟨fuel, s, s', Y, e⟩
    rcases genInv_run stale fuel x y n s with ⟨r', s2, e', B, h1, h2, rfl⟩ | h
    · rw [e] at e'
      injection e' with e'
      injection e' with e' _
      injection e' with e' _
      have := mat_inj e'
      subst this
      exact ⟨h2, h1⟩
    · rw [e] at h; cases h
  · rintro ⟨h2, h1⟩
    obtain ⟨bits, a, s', e, rfl⟩ := (genInv_can stale (Nat.le_refl 1) x y h1 h2).exists_bits 0
    exact ⟨1, _, s', _, e⟩

/-- C77 fails: the identity matrix is never returned, for no size except 0. -/
theorem C77_identity_violated (h : 1 ≤ n) (fuel : Nat) (s s' : Rnd) (r : RandMat)
    (e : RandMat.init stale fuel self n true s = .ok (r, s')) : r.mat ≠ ⟨n, n, 1⟩ := by
  intro hr
  have := ((C77_range_partial stale self 1 0).1 ⟨fuel, s, s', r, e, hr⟩).2.1 ⟨0, by omega⟩
  apply this
  rw [show (1 : Matrix (Fin n) (Fin n) (ZMod 2)) ⟨0, by omega⟩ = Pi.single ⟨0, by omega⟩ 1 from
    funext fun j => by rw [Matrix.one_apply, Pi.single_apply]; simp only [eq_comm]]
  unfold ones
  rw [Finset.card_eq_one]
  refine ⟨⟨0, by omega⟩, Finset.ext fun j => ?_⟩
  rw [Finset.mem_filter, Finset.mem_singleton, Pi.single_apply]
  constructor
  · rintro ⟨-, h⟩
    by_contra h2
    rw [if_neg h2] at h
    exact absurd h (by decide)
  · intro h
    exact ⟨Finset.mem_univ _, if_pos h⟩

/-- C77 fails: `RandMat::init(1)` and `RandMat::init(2)` never return, whatever the random bits are. -/
theorem C77_small_sizes_violated (h : n = 1 ∨ n = 2) (fuel : Nat) (s : Rnd) :
    RandMat.init stale fuel self n true s = .error .diverge := by
  rcases init_run stale fuel self n s with ⟨r', s2, e', B, h1, h2, rfl⟩ | h
  · rcases h with rfl | rfl
    · exact absurd h2 (ones_ne_one_of_singular_one B h1)
    · exact absurd h2 (ones_ne_one_of_singular_two B h1)
  · exact h

/-- C77: from size 3 on, `RandMat::init` returns for suitable random bits. -/
theorem C77_large_sizes (h : 3 ≤ n) {fuel : Nat} (hf : 1 ≤ fuel) (p : Nat) :
    ∃ bits r s', RandMat.init stale fuel self n true ⟨bits, p⟩ = .ok (r, s') := by
  obtain ⟨bits, r, s', e, -⟩ := (init_can stale hf self (chain_noUnitRow h) (chain_unit h)).exists_bits p
  exact ⟨bits, r, s', e⟩

theorem C77_violated : ¬ C77_statement := by
  intro h
  obtain ⟨fuel, s, s', r, e, hr⟩ := h (fun _ _ => 0) default 1 1 isUnit_one
  exact C77_identity_violated (fun _ _ => 0) default (Nat.le_refl 1) fuel s s' r e hr

/-- A matrix that is returned for some random bits, together with those it needs. -/
example : ∃ bits s' r, RandMat.init (fun _ _ => 0) 1 default 8 true ⟨bits, 5⟩ = .ok (r, s') ∧ r.mat = ⟨8, 8, chain 8⟩ :=
  ((C77_range_partial (fun _ _ => 0) default (chain 8) 5).1
    (by
      obtain ⟨bits, r, s', e, h⟩ := (init_can (fun _ _ => 0) (Nat.le_refl 1) default (chain_noUnitRow (n := 8) (by decide))
        (chain_unit (by decide))).exists_bits 0
      exact ⟨1, _, s', r, e, by rw [h]⟩)).2.2 1 (Nat.le_refl 1)

end WB.ntl
