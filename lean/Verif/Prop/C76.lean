import Verif.Proof.NtlGen

/-!
# C76 — the generators on top of NTL return an invertible matrix together with its inverse

Every function may still be waiting for other random bits after `fuel` attempts (outcome `diverge`); C77 is about when it
returns.  No other fault can occur.
-/
namespace WB.ntl

variable (stale : Nat → Nat → ZMod 2) (fuel : Nat) (n : Nat) (s : Rnd)

/-- C76: `RandMat::init(n)`, whatever the object was before. -/
theorem C76_RandMat_init (self : RandMat) :
    (∃ (A B : Matrix (Fin n) (Fin n) (ZMod 2)) (s' : Rnd),
      RandMat.init stale fuel self n true s = .ok (⟨n, ⟨n, n, A⟩, ⟨n, n, B⟩⟩, s') ∧ A * B = 1 ∧ B * A = 1 ∧ NoUnitRow A) ∨
    RandMat.init stale fuel self n true s = .error .diverge := by
  rcases init_run stale fuel self n s with ⟨r, s', e, A, h1, h2, rfl⟩ | h
  · exact .inl ⟨A, A⁻¹, s', e, (inv_both h2).1, (inv_both h2).2, h1⟩
  · exact .inr h

/-- C76: `RandMat::init(n, 0)` returns some matrix, possibly singular, and leaves the old inverse in place. -/
theorem C76_RandMat_init_any (self : RandMat) :
    (∃ (A : Matrix (Fin n) (Fin n) (ZMod 2)) (s' : Rnd),
      RandMat.init stale fuel self n false s = .ok (⟨n, ⟨n, n, A⟩, self.invMat⟩, s') ∧ NoUnitRow A) ∨
    RandMat.init stale fuel self n false s = .error .diverge := by
  rcases init_false_run stale fuel self n s with ⟨r, s', e, A, h1, rfl⟩ | h
  · exact .inl ⟨A, s', e, h1⟩
  · exact .inr h

/-- C76: `InvTMat`. -/
theorem C76_InvTMat :
    (∃ (A : Matrix (Fin n) (Fin n) (ZMod 2)) (s' : Rnd), InvTMat stale fuel n s = .ok (⟨n, n, A⟩, s') ∧ IsUnit A ∧ NoUnitRow A) ∨
    InvTMat stale fuel n s = .error .diverge := by
  rcases InvTMat_run stale fuel n s with ⟨r, s', e, A, h1, h2, rfl⟩ | h
  · exact .inl ⟨A, s', e, h2, h1⟩
  · exact .inr h

/-- C76: `initVec` returns the next `n` random bits. -/
theorem C76_initVec : initVec n s = .ok (⟨n, slice s.bits s.pos n⟩, { s with pos := s.pos + n }) := initVec_eq n s

/-- C76: `random(L, r, c)` returns an `r` by `c` matrix, whatever `L` was. -/
theorem C76_random (L : MatGF2) (r c : Nat) :
    (∃ (A : Matrix (Fin r) (Fin c) (ZMod 2)) (s' : Rnd), random stale fuel L r c s = .ok (⟨r, c, A⟩, s') ∧ NoUnitRow A) ∨
    random stale fuel L r c s = .error .diverge := by
  unfold random
  obtain ⟨D, e⟩ := SetDims_eq stale L r c
  rw [e]
  rcases fillMat_run fuel D s with ⟨_, s', e, A, h1, rfl⟩ | h
  · exact .inl ⟨A, s', e, h1⟩
  · exact .inr h

/-- C76: `genRandomInvMatrix`. -/
theorem C76_genRandomInvMatrix (x y : MatGF2) :
    (∃ (A B : Matrix (Fin n) (Fin n) (ZMod 2)) (s' : Rnd),
      genRandomInvMatrix stale fuel x y n s = .ok ((⟨n, n, A⟩, ⟨n, n, B⟩), s') ∧ A * B = 1 ∧ B * A = 1 ∧ NoUnitRow A) ∨
    genRandomInvMatrix stale fuel x y n s = .error .diverge := by
  rcases genInv_run stale fuel x y n s with ⟨r, s', e, A, h1, h2, rfl⟩ | h
  · exact .inl ⟨A, A⁻¹, s', e, (inv_both h2).1, (inv_both h2).2, h1⟩
  · exact .inr h

/-- C76: `genRandomAffineMatrix`: a matrix, its inverse and a vector. -/
theorem C76_genRandomAffineMatrix (x y : MatGF2) :
    (∃ (A B : Matrix (Fin n) (Fin n) (ZMod 2)) (v : Fin n → ZMod 2) (s' : Rnd),
      genRandomAffineMatrix stale fuel x y n s = .ok ((⟨n, n, A⟩, ⟨n, n, B⟩, ⟨n, v⟩), s') ∧ A * B = 1 ∧ B * A = 1 ∧
        NoUnitRow A) ∨
    genRandomAffineMatrix stale fuel x y n s = .error .diverge := by
  rcases genAffine_run stale fuel x y n s with ⟨r, s', e, A, v, h1, h2, rfl⟩ | h
  · exact .inl ⟨A, A⁻¹, v, s', e, (inv_both h2).1, (inv_both h2).2, h1⟩
  · exact .inr h

/-- C76: `genRandomAffineMatrix2` returns two affine maps, each of which undoes the other. -/
theorem C76_genRandomAffineMatrix2 (x y : MatGF2) :
    (∃ (A B : Matrix (Fin n) (Fin n) (ZMod 2)) (v w : Fin n → ZMod 2) (s' : Rnd),
      genRandomAffineMatrix2 stale fuel x y n s = .ok ((⟨n, n, A⟩, ⟨n, n, B⟩, ⟨n, v⟩, ⟨n, w⟩), s') ∧ NoUnitRow A ∧
      ∀ z, B.mulVec (A.mulVec z + v) + w = z ∧ A.mulVec (B.mulVec z + w) + v = z) ∨
    genRandomAffineMatrix2 stale fuel x y n s = .error .diverge := by
  rcases genAffine2_run stale fuel x y n s with ⟨r, s', e, A, v, h1, h2, rfl⟩ | h
  · refine .inl ⟨A, A⁻¹, v, _, s', e, h1, fun z => ?_⟩
    obtain ⟨e1, e2⟩ := inv_both h2
    have hd : ∀ u : Fin n → ZMod 2, u + u = 0 := fun u => funext fun i => CharTwo.add_self_eq_zero (u i)
    constructor
    · rw [Matrix.mulVec_add, Matrix.mulVec_mulVec, e2, Matrix.one_mulVec, add_assoc, hd, add_zero]
    · rw [Matrix.mulVec_add, Matrix.mulVec_mulVec, Matrix.mulVec_mulVec, e1, Matrix.one_mulVec, Matrix.one_mulVec, add_assoc, hd,
        add_zero]
  · exact .inr h

/-- C76: `genRandomAffineAugmentedMatrix` returns two matrices that are inverse to each other; the first one applied to a vector
with a last element `a` applies an invertible linear map `L`, adds `a` times the vector `v` and keeps `a`. -/
theorem C76_genRandomAffineAugmentedMatrix (x y : MatGF2) :
    (∃ (X Y : Matrix (Fin (n + 1)) (Fin (n + 1)) (ZMod 2)) (L : Matrix (Fin n) (Fin n) (ZMod 2)) (v : Fin n → ZMod 2) (s' : Rnd),
      genRandomAffineAugmentedMatrix stale fuel x y n s = .ok ((⟨n + 1, n + 1, X⟩, ⟨n + 1, n + 1, Y⟩), s') ∧
      X * Y = 1 ∧ Y * X = 1 ∧ IsUnit L ∧ NoUnitRow L ∧ ∀ (z : Fin n → ZMod 2) (a : ZMod 2),
        X.mulVec (Fin.snoc (α := fun _ => ZMod 2) z a) = Fin.snoc (α := fun _ => ZMod 2) (L.mulVec z + a • v) a) ∨
    genRandomAffineAugmentedMatrix stale fuel x y n s = .error .diverge := by
  rcases genAug_run stale fuel x y n s with ⟨r, s', e, A, v, h1, h2, rfl⟩ | h
  · exact .inl ⟨_, _, A, v, s', e, (inv_both (affMat_unit h2 v)).1, (inv_both (affMat_unit h2 v)).2, h2, h1,
      fun z a => affMat_mulVec A v z a⟩
  · exact .inr h

/-- C76: a result does not depend on the number of attempts that are allowed. -/
theorem C76_more_attempts {fuel fuel' : Nat} (h : fuel ≤ fuel') (self : RandMat) (b : Bool) {r : RandMat × Rnd}
    (e : RandMat.init stale fuel self n b s = .ok r) : RandMat.init stale fuel' self n b s = .ok r := by
  unfold RandMat.init at *
  cases b
  · exact ((fillMat_le h _ n n).bind fun _ => Le.refl _) s r e
  · exact ((drawMat_le h h _ n).bind fun _ => Le.refl _) s r e

/-- C76: the same for `genRandomAffineMatrix`. -/
theorem C76_more_attempts_affine {fuel fuel' : Nat} (h : fuel ≤ fuel') (x y : MatGF2) {r : (MatGF2 × MatGF2 × VecGF2) × Rnd}
    (e : genRandomAffineMatrix stale fuel x y n s = .ok r) : genRandomAffineMatrix stale fuel' x y n s = .ok r := by
  unfold genRandomAffineMatrix at *
  exact ((randomInvertible_le stale h h _ n).bind fun _ => Le.refl _) s r e

/-- There are random bits with which the generators return, here an affine map of size 8 drawn at position 5. -/
example : ∃ bits A B s', genRandomAffineMatrix (fun _ _ => 0) 1 default default 8 ⟨bits, 5⟩ =
    .ok ((⟨8, 8, A⟩, ⟨8, 8, B⟩, ⟨8, fun _ => 1⟩), s') ∧ A * B = 1 ∧ A ≠ 1 := by
  obtain ⟨bits, r, s', e, rfl⟩ := (genAffine_can (fun _ _ => 0) (Nat.le_refl 1) default default
    (chain_noUnitRow (n := 8) (by decide)) (chain_unit (by decide)) fun _ => 1).exists_bits 5
  refine ⟨bits, chain 8, _, s', e, (inv_both (chain_unit (by decide))).1, fun h => ?_⟩
  have := chain_noUnitRow (n := 8) (by decide) 0
  rw [h] at this
  exact this (by decide)

end WB.ntl
