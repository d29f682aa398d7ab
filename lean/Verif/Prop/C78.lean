import Verif.Proof.NtlGen

/-!
# C78 — numbers, vectors and affine maps of the NTL based SM4 demo

`numVec n x` is the vector of the `n` low bits of `x`, most significant bit first.  `W` is the number of bits of `long`.
-/
namespace WB.ntl

variable (stale : Nat → Nat → ZMod 2) {n m W : Nat}

/-- C78: `initVecFromBit`, whatever the vector was before; bits that `long` does not have are copies of the sign bit. -/
theorem C78_initVecFromBit (M : VecGF2) (data : BitVec W) :
    (n ≤ W → initVecFromBit M data n = .ok (numVec n data)) ∧ initVecFromBit M data n = .ok (numVec n (data.signExtend n)) :=
  ⟨fun h => initVec_num M data h, initVecFromBit_run M data n⟩

/-- C78: `initMatrixFromBit` fills row `i` with the number `i` of the array. -/
theorem C78_initMatrixFromBit (A : Matrix (Fin n) (Fin m) (ZMod 2)) (data : List (BitVec W)) (h : n ≤ data.length) (hm : m ≤ W) :
    ∃ B : Matrix (Fin n) (Fin m) (ZMod 2), initMatrixFromBit ⟨n, m, A⟩ data = .ok ⟨n, m, B⟩ ∧
      ∀ i : Fin n, (⟨m, B i⟩ : VecGF2) = numVec m (data[i.val]'(by omega)) :=
  ⟨_, initMatrix_run A data h, fun _ => numVec_signExtend _ hm (Nat.le_refl _)⟩

/-- C78: `getDigitalFromVec` returns the last 32 elements of the vector as a number. -/
theorem C78_getDigitalFromVec (v : Fin n → ZMod 2) :
    ∃ y, getDigitalFromVec ⟨n, v⟩ = .ok y ∧
      ∀ k, k < 32 → y.getLsbD k = (if h : k < n then decide (v ⟨n - 1 - k, by omega⟩ = 1) else false) :=
  digits_run 32 v (Nat.le_refl n)

/-- C78: `getDigitalFromVec` after `initVecFromBit` returns the number again. -/
theorem C78_roundtrip (M : VecGF2) (x : BitVec n) (h : n ≤ 32) (hW : n ≤ W) :
    (do getDigitalFromVec (← initVecFromBit M (x.setWidth W) n)) = .ok (x.setWidth 32) := by
  rw [initVec_num M _ hW, numVec_setWidth x hW]
  exact getDigital_num x h

/-- C78: `get32FromVec` returns the first 32 elements of the vector as a number; a shorter vector is read out of range. -/
theorem C78_get32FromVec (v : Fin n → ZMod 2) :
    (∀ _ : 32 ≤ n, ∃ y, get32FromVec ⟨n, v⟩ = .ok y ∧
      ∀ k (_ : k < 32), y.getLsbD k = decide (v ⟨31 - k, by omega⟩ = 1)) ∧
    (n < 32 → get32FromVec ⟨n, v⟩ = .error .oob) := by
  constructor
  · intro h
    obtain ⟨y, e, hy⟩ := digits_run 32 v h
    refine ⟨y, e, fun k hk => ?_⟩
    rw [hy k hk, dif_pos hk]
  · intro h
    exact digits_short 32 v h

/-- C78: the same for `get8FromVec` and 8 elements. -/
theorem C78_get8FromVec (v : Fin n → ZMod 2) :
    (∀ _ : 8 ≤ n, ∃ y, get8FromVec ⟨n, v⟩ = .ok y ∧
      ∀ k (_ : k < 8), y.getLsbD k = decide (v ⟨7 - k, by omega⟩ = 1)) ∧
    (n < 8 → get8FromVec ⟨n, v⟩ = .error .oob) := by
  constructor
  · intro h
    obtain ⟨y, e, hy⟩ := digits_run 8 v h
    refine ⟨y, e, fun k hk => ?_⟩
    rw [hy k hk, dif_pos hk]
  · intro h
    exact digits_short 8 v h

/-- C78: `getVecFrom32`. -/
theorem C78_getVecFrom32 (d : VecGF2) (x : BitVec 32) : getVecFrom32 d x = .ok (numVec 32 x) := getVecFrom32_run d x

/-- C78: an augmented matrix applied to an augmented vector applies the affine map. -/
theorem C78_augmented (X : MatGF2) (u : VecGF2) (L : Matrix (Fin 32) (Fin 32) (ZMod 2)) (v : Fin 32 → ZMod 2) (x : BitVec 32) :
    (do
      let X ← augment stale X ⟨32, 32, L⟩ ⟨32, v⟩ 32
      let z ← mulVec X (← getAugmentedVecFrom32 u x)
      pure z) = .ok ⟨33, Fin.snoc (α := fun _ => ZMod 2) (L.mulVec (numBits 32 x) + v) 1⟩ := by
  rw [ok_bind (augment_run stale X L v), ok_bind (getAug_run u x), mulVec_run, affMat_mulVec, one_smul]

/-- C78: `combineDiagMat` puts two square matrices on the diagonal. -/
theorem C78_combineDiagMat (d : MatGF2) (A : Matrix (Fin n) (Fin n) (ZMod 2)) (B : Matrix (Fin m) (Fin m) (ZMod 2)) :
    combineDiagMat stale d ⟨n, n, A⟩ ⟨m, m, B⟩ = .ok ⟨n + m, n + m, m4ri.diagMat A B⟩ := combineDiag_run stale d A B

/-- C78: `applyAffineToU32` and `applyAffineToU8` apply the affine map to the bits of the number. -/
theorem C78_applyAffine (A : Matrix (Fin 32) (Fin 32) (ZMod 2)) (v : Fin 32 → ZMod 2) (A' : Matrix (Fin 8) (Fin 8) (ZMod 2))
    (v' : Fin 8 → ZMod 2) (x : BitVec 32) (x' : BitVec 8) (hW : 32 ≤ W) :
    (∃ y, applyAffineToU32 W ⟨⟨32, 32, A⟩, ⟨32, v⟩⟩ x = .ok y ∧ numVec 32 y = ⟨32, A.mulVec (numBits 32 x) + v⟩) ∧
    (∃ y, applyAffineToU8 W ⟨⟨8, 8, A'⟩, ⟨8, v'⟩⟩ x' = .ok y ∧ numVec 8 y = ⟨8, A'.mulVec (numBits 8 x') + v'⟩) := by
  constructor
  · obtain ⟨y, hy⟩ := exists_numVec (A.mulVec (numBits 32 x) + v)
    refine ⟨y, ?_, hy⟩
    rw [applyAffine32_of hW, ← hy]
    exact get32_num y
  · obtain ⟨y, hy⟩ := exists_numVec (A'.mulVec (numBits 8 x') + v')
    refine ⟨y, ?_, hy⟩
    rw [applyAffine8_of (by omega), ← hy, getDigital_num y (by decide)]
    exact congrArg Except.ok (setWidth_back y)

/-- C78: `applyMatToU32` and `applyMatToU8`. -/
theorem C78_applyMat (A : Matrix (Fin 32) (Fin 32) (ZMod 2)) (A' : Matrix (Fin 8) (Fin 8) (ZMod 2))
    (x : BitVec 32) (x' : BitVec 8) (hW : 32 ≤ W) :
    (∃ y, applyMatToU32 W ⟨32, 32, A⟩ x = .ok y ∧ numVec 32 y = ⟨32, A.mulVec (numBits 32 x)⟩) ∧
    (∃ y, applyMatToU8 W ⟨8, 8, A'⟩ x' = .ok y ∧ numVec 8 y = ⟨8, A'.mulVec (numBits 8 x')⟩) := by
  constructor
  · obtain ⟨y, hy⟩ := exists_numVec (A.mulVec (numBits 32 x))
    refine ⟨y, ?_, hy⟩
    rw [applyMat32_of hW, ← hy]
    exact (getDigital_num y (by decide)).trans (congrArg Except.ok (BitVec.setWidth_eq y))
  · obtain ⟨y, hy⟩ := exists_numVec (A'.mulVec (numBits 8 x'))
    refine ⟨y, ?_, hy⟩
    rw [applyMat8_of (by omega), ← hy, getDigital_num y (by decide)]
    exact congrArg Except.ok (setWidth_back y)

/-- C78: `addVecToU32` and `addVecToU8`. -/
theorem C78_addVec (v : Fin 32 → ZMod 2) (v' : Fin 8 → ZMod 2) (x : BitVec 32) (x' : BitVec 8) (hW : 32 ≤ W) :
    (∃ y, addVecToU32 W ⟨32, v⟩ x = .ok y ∧ numVec 32 y = ⟨32, v + numBits 32 x⟩) ∧
    (∃ y, addVecToU8 W ⟨8, v'⟩ x' = .ok y ∧ numVec 8 y = ⟨8, v' + numBits 8 x'⟩) := by
  constructor
  · obtain ⟨y, hy⟩ := exists_numVec (v + numBits 32 x)
    refine ⟨y, ?_, hy⟩
    rw [addVec32_of hW, ← hy]
    exact (getDigital_num y (by decide)).trans (congrArg Except.ok (BitVec.setWidth_eq y))
  · obtain ⟨y, hy⟩ := exists_numVec (v' + numBits 8 x')
    refine ⟨y, ?_, hy⟩
    rw [addVec8_of (by omega), ← hy, getDigital_num y (by decide)]
    exact congrArg Except.ok (setWidth_back y)

/-- C78: `genIndMatrix` is the identity matrix and `genZeroVec` the zero vector, whatever the objects were before. -/
theorem C78_neutral (M : MatGF2) (x : VecGF2) :
    genIndMatrix stale M n = .ok ⟨n, n, 1⟩ ∧ genZeroVec x n = .ok ⟨n, 0⟩ := ⟨genInd_run stale M n, genZero_run x n⟩

/-- The number 6 as a vector of 4 bits, and a number read from a vector of 40 bits. -/
example : numVec 4 (6#8) = ⟨4, ![0, 1, 1, 0]⟩ ∧
    getDigitalFromVec ⟨40, fun i => if i.val = 7 ∨ i.val = 38 then 1 else 0⟩ = .ok 2#32 := by
  constructor
  · unfold numVec
    congr 1
    funext i
    fin_cases i <;> decide
  · obtain ⟨y, e, h⟩ := C78_getDigitalFromVec (n := 40) fun i => if i.val = 7 ∨ i.val = 38 then 1 else 0
    refine e.trans (congrArg Except.ok (BitVec.eq_of_getLsbD_eq fun k hk => (h k hk).trans ?_))
    interval_cases k <;> decide

end WB.ntl
