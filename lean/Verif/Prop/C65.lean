import Verif.Proof.MatGf2Misc
import Verif.Proof.Inj
import Verif.Prop.C02

/-!
# C65 — what the matrix layer on top of M4RI computes

Specification: matrices over GF(2), `Points`, `Is`, `push`, `setObj` of `Verif/SpecM4ri.lean`; a number as a column of
bits, most significant bit first.
-/
namespace WB
open m4ri

variable {lib : M4ri} {s : Heap}

/-- The sum of `f 0, …, f (n - 1)`. -/
def xorUpTo (f : Nat → Bool) : Nat → Bool
  | 0 => false
  | n + 1 => xorUpTo f n ^^ f n

/-- A library that satisfies the contract `M4ri.Ok`: the definitions of product, inverse and transpose. -/
noncomputable def exLib : M4ri where
  mul a b := ⟨a.nrows, b.ncols, fun i j => xorUpTo (fun k => a.bit i k && b.bit k j) a.ncols⟩
  inv a := ⟨a.nrows, a.nrows, fun i j =>
    if h : i < a.nrows ∧ j < a.nrows then (bitMat a.nrows a.nrows a.bit)⁻¹ ⟨i, h.1⟩ ⟨j, h.2⟩ == 1 else false⟩
  transpose a := ⟨a.ncols, a.nrows, fun i j => a.bit j i⟩
  rnd k i j := (k + i * 3 + j * 5 + i * j) % 7 < 3

theorem xorUpTo_sum (f : Nat → Bool) (n : Nat) : bitF (xorUpTo f n) = ∑ k : Fin n, bitF (f k) := by
  rw [← Finset.sum_range (fun k => bitF (f k))]
  induction n with
  | zero => rfl
  | succ n ih => rw [xorUpTo, bitF_xor, ih, Finset.sum_range_succ]

theorem bitF_beq (x : ZMod 2) : bitF (x == 1) = x := by revert x; decide

/-- The contract can be met. -/
theorem exLib_ok : exLib.Ok where
  mul := by
    intro a b r k c A B _ _ hA hB
    refine ⟨hA.nrows, hB.ncols, ?_⟩
    intro i j
    have h : (exLib.mul a b).bit i j = xorUpTo (fun k => a.bit i k && b.bit k j) a.ncols := rfl
    rw [h, xorUpTo_sum, hA.ncols, Matrix.mul_apply]
    refine Finset.sum_congr rfl ?_
    intro l _
    rw [← hA.bit, ← hB.bit]
    cases a.bit i l <;> cases b.bit l j <;> decide
  inv := by
    intro a n A _ hA _
    have hn := hA.nrows
    subst hn
    have : bitMat a.nrows a.nrows a.bit = A := by funext i j; exact hA.bit i j
    refine ⟨rfl, rfl, ?_⟩
    intro i j
    have h : (exLib.inv a).bit i j = ((bitMat a.nrows a.nrows a.bit)⁻¹ i j == 1) := dif_pos ⟨i.2, j.2⟩
    rw [h, this]
    exact bitF_beq _
  transpose := by
    intro a r c A _ _ hA
    exact ⟨hA.ncols, hA.nrows, fun i j => hA.bit j i⟩

/-- The heap of the examples: an 8 × 8 matrix at address 1, a 32 × 1 matrix at address 2, a 2 × 3 matrix at address 3. -/
def exHeap : Heap where
  obj p := match p with
    | 1 => some ⟨8, 8, fun i j => i = j ∨ (i + 1 = j)⟩
    | 2 => some ⟨32, 1, fun i _ => i % 3 = 0⟩
    | 3 => some ⟨2, 3, fun i j => (i + j) % 2 = 0⟩
    | _ => none
  next := 4
  rand := 0
  out := []

theorem exHeap_ok : exHeap.Ok where
  pos := by decide
  null := rfl
  fresh p hp := by
    have : 4 ≤ p := hp
    obtain ⟨q, rfl⟩ : ∃ q, p = q + 4 := ⟨p - 4, by omega⟩
    rfl

/-- The value of a computation that does not fail. -/
def valueOf {α : Type} (x : Except MFault (α × Heap)) : Option α :=
  match x with
  | .ok (a, _) => some a
  | .error _ => none

/-! ## Numbers -/

/-- C65: `InitVecFromBit` writes the bits of a number into a column, most significant bit first; only the column is
changed. -/
theorem C65_InitVecFromBit (hs : s.Ok) {p n : Nat} {V : Matrix (Fin n) (Fin 1) (ZMod 2)} (h : Points s p V)
    (x : BitVec 64) : ∃ m, InitVecFromBit x p s = .ok ((), setObj s p (some m)) ∧ Is m (colVec n x) := by
  obtain ⟨m, hp, hV⟩ := h
  obtain ⟨u, s', e, m', rfl, h1, h2, h3⟩ := initVec_run hs hp (by rw [hV.ncols]; exact Nat.one_pos) x
  refine ⟨m', e, h1.trans hV.nrows, h2.trans hV.ncols, ?_⟩
  intro i j
  obtain rfl : j = 0 := Subsingleton.elim _ _
  have := h3 i 0 (by rw [hV.nrows]; exact i.2) (by rw [hV.ncols]; exact Nat.one_pos)
  show bitF (m'.bit i 0) = _
  rw [this, hV.nrows]; rfl

theorem digital_lt {w n : Nat} {m : Mzd} {y : BitVec w} (hr : m.nrows = n)
    (hy : ∀ k, k < w → y.getLsbD k = (decide (k < m.nrows) && m.bit (m.nrows - 1 - k) 0)) : y.toNat < 2 ^ n := by
  refine Nat.lt_pow_two_of_testBit _ ?_
  intro k hk
  show y.getLsbD k = false
  by_cases hw : k < w
  · rw [hy k hw]; simp [hr, show ¬ k < n by omega]
  · exact BitVec.getLsbD_of_ge _ _ (by omega)

/-- C65: `getDigitalFromVec` reads a column of at most 32 bits as a number; the bits of the number above it are zero. -/
theorem C65_getDigitalFromVec (hs : s.Ok) {p n : Nat} (hn : n ≤ 32) {V : Matrix (Fin n) (Fin 1) (ZMod 2)}
    (h : Points s p V) : ∃ y, getDigitalFromVec p s = .ok (y, s) ∧ colVec n y = V ∧ y.toNat < 2 ^ n := by
  obtain ⟨m, hp, hV⟩ := h
  obtain ⟨y, e, hy⟩ := getDigital_run (w := 32) hs hp hV.ncols
  obtain ⟨y', e', hy'⟩ := digital_run (w := 32) (by omega) hs ⟨m, hp, hV⟩
  rw [e] at e'
  cases e'
  refine ⟨y, ?_, ?_, digital_lt hV.nrows hy⟩
  · exact e
  · funext i j
    obtain rfl : j = 0 := Subsingleton.elim _ _
    exact hy' i

/-- C65: `getDigital64FromVec` reads a column of at most 64 bits as a number; the bits of the number above it are zero. -/
theorem C65_getDigital64FromVec (hs : s.Ok) {p n : Nat} (hn : n ≤ 64) {V : Matrix (Fin n) (Fin 1) (ZMod 2)}
    (h : Points s p V) : ∃ y, getDigital64FromVec p s = .ok (y, s) ∧ colVec n y = V ∧ y.toNat < 2 ^ n := by
  obtain ⟨m, hp, hV⟩ := h
  obtain ⟨y, e, hy⟩ := getDigital_run (w := 64) hs hp hV.ncols
  obtain ⟨y', e', hy'⟩ := digital_run (w := 64) (by omega) hs ⟨m, hp, hV⟩
  rw [e] at e'
  cases e'
  refine ⟨y, ?_, ?_, digital_lt hV.nrows hy⟩
  · exact e
  · funext i j
    obtain rfl : j = 0 := Subsingleton.elim _ _
    exact hy' i

/-- C65: `getDigital128FromVec` reads a column of at most 128 bits as a number; the bits of the number above it are zero. -/
theorem C65_getDigital128FromVec (hs : s.Ok) {p n : Nat} (hn : n ≤ 128) {V : Matrix (Fin n) (Fin 1) (ZMod 2)}
    (h : Points s p V) : ∃ y, getDigital128FromVec p s = .ok (y, s) ∧ colVec n y = V ∧ y.toNat < 2 ^ n := by
  obtain ⟨m, hp, hV⟩ := h
  obtain ⟨y, e, hy⟩ := getDigital_run (w := 128) hs hp hV.ncols
  obtain ⟨y', e', hy'⟩ := digital_run (w := 128) (by omega) hs ⟨m, hp, hV⟩
  rw [e] at e'
  cases e'
  refine ⟨y, ?_, ?_, digital_lt hV.nrows hy⟩
  · exact e
  · funext i j
    obtain rfl : j = 0 := Subsingleton.elim _ _
    exact hy' i

/-- C65: `get32FromVec` reads a column of 32 bits as a number. -/
theorem C65_get32FromVec (hs : s.Ok) {p n : Nat} (hn : n = 32) {V : Matrix (Fin n) (Fin 1) (ZMod 2)}
    (h : Points s p V) : ∃ y, get32FromVec p s = .ok (y, s) ∧ colVec n y = V ∧ y.toNat < 2 ^ n := by
  obtain ⟨m, hp, hV⟩ := h
  obtain ⟨y, e, hy⟩ := getDigital_run (w := 32) hs hp hV.ncols
  obtain ⟨y', e', hy'⟩ := digital_run (w := 32) (by omega) hs ⟨m, hp, hV⟩
  rw [e] at e'
  cases e'
  refine ⟨y, ?_, ?_, digital_lt hV.nrows hy⟩
  · rw [get32FromVec, MM_bind (deref_run hs hp), if_neg (by rw [hV.nrows, hn]; simp)]; exact e
  · funext i j
    obtain rfl : j = 0 := Subsingleton.elim _ _
    exact hy' i

/-- C65: `get64FromVec` reads a column of 64 bits as a number. -/
theorem C65_get64FromVec (hs : s.Ok) {p n : Nat} (hn : n = 64) {V : Matrix (Fin n) (Fin 1) (ZMod 2)}
    (h : Points s p V) : ∃ y, get64FromVec p s = .ok (y, s) ∧ colVec n y = V ∧ y.toNat < 2 ^ n := by
  obtain ⟨m, hp, hV⟩ := h
  obtain ⟨y, e, hy⟩ := getDigital_run (w := 64) hs hp hV.ncols
  obtain ⟨y', e', hy'⟩ := digital_run (w := 64) (by omega) hs ⟨m, hp, hV⟩
  rw [e] at e'
  cases e'
  refine ⟨y, ?_, ?_, digital_lt hV.nrows hy⟩
  · rw [get64FromVec, MM_bind (deref_run hs hp), if_neg (by rw [hV.nrows, hn]; simp)]; exact e
  · funext i j
    obtain rfl : j = 0 := Subsingleton.elim _ _
    exact hy' i

/-- C65: `get128FromVec` reads a column of 128 bits as a number. -/
theorem C65_get128FromVec (hs : s.Ok) {p n : Nat} (hn : n = 128) {V : Matrix (Fin n) (Fin 1) (ZMod 2)}
    (h : Points s p V) : ∃ y, get128FromVec p s = .ok (y, s) ∧ colVec n y = V ∧ y.toNat < 2 ^ n := by
  obtain ⟨m, hp, hV⟩ := h
  obtain ⟨y, e, hy⟩ := getDigital_run (w := 128) hs hp hV.ncols
  obtain ⟨y', e', hy'⟩ := digital_run (w := 128) (by omega) hs ⟨m, hp, hV⟩
  rw [e] at e'
  cases e'
  refine ⟨y, ?_, ?_, digital_lt hV.nrows hy⟩
  · rw [get128FromVec, MM_bind (deref_run hs hp), if_neg (by rw [hV.nrows, hn]; simp)]; exact e
  · funext i j
    obtain rfl : j = 0 := Subsingleton.elim _ _
    exact hy' i

example : valueOf (getDigitalFromVec 2 exHeap) = some 0x92492492 := by decide +kernel

/-- C65: a number that has been written into a column with `InitVecFromBit` is read back by `getDigitalFromVec`. -/
theorem C65_roundTrip (hs : s.Ok) {p : Nat} {V : Matrix (Fin 32) (Fin 1) (ZMod 2)} (h : Points s p V) (x : BitVec 32) :
    ∃ m, InitVecFromBit (x.setWidth 64) p s = .ok ((), setObj s p (some m)) ∧
      getDigitalFromVec p (setObj s p (some m)) = .ok (x, setObj s p (some m)) := by
  obtain ⟨m, e, hm⟩ := C65_InitVecFromBit hs h (x.setWidth 64)
  obtain ⟨mp, hp, -⟩ := h
  obtain ⟨y, e2, hy, -⟩ := C65_getDigitalFromVec (hs.setSome hp) (Nat.le_refl 32) ⟨m, setObj_self _ _ _, hm⟩
  refine ⟨m, e, ?_⟩
  rw [e2]
  have hxy : y = x := by
    rw [setWidth_bit (by decide) 32 (by decide)] at hy
    exact vecS_inj (funext fun i => congrFun (congrFun hy i) 0)
  rw [hxy]

/-! ## Matrix times number -/

/-- C65: `ApplyMatToU8` returns the product of the matrix and the number, the same as `MatMulNumM8` for the same matrix; all matrices in memory are as before. -/
theorem C65_ApplyMatToU8 (hl : lib.Ok) (hs : s.Ok) {mat : Nat} {A : Matrix (Fin 8) (Fin 8) (ZMod 2)}
    (hA : Points s mat A) (x : BitVec 8) :
    ∃ y, ApplyMatToU8 lib mat x s = .ok (y, { s with next := s.next + 2 }) ∧ vec8 y = A.mulVec (vec8 x) ∧
      ∀ (env : Env) (M : M8), mat8 M = A → MatMulNumM8 env M x = .ok y := by
  obtain ⟨m, e1, hm⟩ := newVec_bind (n := 8) hs (x.setWidth 64) (fun a => do
    let a ← MatGf2Mul lib mat a a
    let result ← getDigitalFromVec a
    MatGf2Free a
    pure (result.setWidth 8))
  obtain ⟨m', e2, hm'⟩ := mulTwo_run hl hs hA (x.setWidth 64) hm
  obtain ⟨y, e3, hy, -⟩ := C65_getDigitalFromVec (two_ok hs m m') (n := 8) (by decide) ⟨m', two_obj s m m', hm'⟩
  have hv : vec8 (y.setWidth 8) = A.mulVec (vec8 x) := by
    funext i
    have h := congrFun (congrFun hy i) 0
    rw [colVec_mulVec] at h
    have h2 : vecOf 8 (bitS 8) (x.setWidth 64) = vec8 x := by
      exact funext fun i => congrFun (congrFun (setWidth_bit (w := 8) (v := 64) (by decide) 8 (Nat.le_refl _) x) i) 0
    rw [h2] at h
    rw [← h]
    have hi := i.2
    show bitF (bitS 8 (y.setWidth 8) i) = bitF (bitS 8 y i)
    simp [bitS, show 8 - 1 - i.val < 8 by omega]
  refine ⟨y.setWidth 8, ?_, hv, ?_⟩
  · have : ApplyMatToU8 lib mat x = (do
        let a ← GenMatGf2 8 1
        initVec (x.setWidth 64) a
        let a ← MatGf2Mul lib mat a a
        let result ← getDigitalFromVec a
        MatGf2Free a
        pure (result.setWidth 8)) := rfl
    rw [this, e1, MM_bind e2, MM_bind e3, MM_bind (free_run (two_ok hs m m') (two_obj s m m')), freeTwo hs]
    rfl
  · rintro env M rfl
    obtain ⟨z, ez, -, hz⟩ := C02_MatMulNumM8 env M x 0
    rw [ez]
    congr 1
    exact vecS_inj (hz.trans hv.symm)

/-- C65: `ApplyMatToU16` returns the product of the matrix and the number, the same as `MatMulNumM16` for the same matrix; all matrices in memory are as before. -/
theorem C65_ApplyMatToU16 (hl : lib.Ok) (hs : s.Ok) {mat : Nat} {A : Matrix (Fin 16) (Fin 16) (ZMod 2)}
    (hA : Points s mat A) (x : BitVec 16) :
    ∃ y, ApplyMatToU16 lib mat x s = .ok (y, { s with next := s.next + 2 }) ∧ vec16 y = A.mulVec (vec16 x) ∧
      ∀ (env : Env) (M : M16), mat16 M = A → MatMulNumM16 env M x = .ok y := by
  obtain ⟨m, e1, hm⟩ := newVec_bind (n := 16) hs (x.setWidth 64) (fun a => do
    let a ← MatGf2Mul lib mat a a
    let result ← getDigitalFromVec a
    MatGf2Free a
    pure (result.setWidth 16))
  obtain ⟨m', e2, hm'⟩ := mulTwo_run hl hs hA (x.setWidth 64) hm
  obtain ⟨y, e3, hy, -⟩ := C65_getDigitalFromVec (two_ok hs m m') (n := 16) (by decide) ⟨m', two_obj s m m', hm'⟩
  have hv : vec16 (y.setWidth 16) = A.mulVec (vec16 x) := by
    funext i
    have h := congrFun (congrFun hy i) 0
    rw [colVec_mulVec] at h
    have h2 : vecOf 16 (bitS 16) (x.setWidth 64) = vec16 x := by
      exact funext fun i => congrFun (congrFun (setWidth_bit (w := 16) (v := 64) (by decide) 16 (Nat.le_refl _) x) i) 0
    rw [h2] at h
    rw [← h]
    have hi := i.2
    show bitF (bitS 16 (y.setWidth 16) i) = bitF (bitS 16 y i)
    simp [bitS, show 16 - 1 - i.val < 16 by omega]
  refine ⟨y.setWidth 16, ?_, hv, ?_⟩
  · have : ApplyMatToU16 lib mat x = (do
        let a ← GenMatGf2 16 1
        initVec (x.setWidth 64) a
        let a ← MatGf2Mul lib mat a a
        let result ← getDigitalFromVec a
        MatGf2Free a
        pure (result.setWidth 16)) := rfl
    rw [this, e1, MM_bind e2, MM_bind e3, MM_bind (free_run (two_ok hs m m') (two_obj s m m')), freeTwo hs]
    rfl
  · rintro env M rfl
    obtain ⟨z, ez, -, hz⟩ := C02_MatMulNumM16 env M x 0
    rw [ez]
    congr 1
    exact vecS_inj (hz.trans hv.symm)

/-- C65: `ApplyMatToU32` returns the product of the matrix and the number, the same as `MatMulNumM32` for the same matrix; all matrices in memory are as before. -/
theorem C65_ApplyMatToU32 (hl : lib.Ok) (hs : s.Ok) {mat : Nat} {A : Matrix (Fin 32) (Fin 32) (ZMod 2)}
    (hA : Points s mat A) (x : BitVec 32) :
    ∃ y, ApplyMatToU32 lib mat x s = .ok (y, { s with next := s.next + 2 }) ∧ vec32 y = A.mulVec (vec32 x) ∧
      ∀ (env : Env) (M : M32), mat32 M = A → MatMulNumM32 env M x = .ok y := by
  obtain ⟨m, e1, hm⟩ := newVec_bind (n := 32) hs (x.setWidth 64) (fun a => do
    let a ← MatGf2Mul lib mat a a
    let result ← getDigitalFromVec a
    MatGf2Free a
    pure (result))
  obtain ⟨m', e2, hm'⟩ := mulTwo_run hl hs hA (x.setWidth 64) hm
  obtain ⟨y, e3, hy, -⟩ := C65_getDigitalFromVec (two_ok hs m m') (n := 32) (by decide) ⟨m', two_obj s m m', hm'⟩
  have hv : vec32 (y) = A.mulVec (vec32 x) := by
    funext i
    have h := congrFun (congrFun hy i) 0
    rw [colVec_mulVec] at h
    have h2 : vecOf 32 (bitS 32) (x.setWidth 64) = vec32 x := by
      exact funext fun i => congrFun (congrFun (setWidth_bit (w := 32) (v := 64) (by decide) 32 (Nat.le_refl _) x) i) 0
    rw [h2] at h
    rw [← h]
    rfl
  refine ⟨y, ?_, hv, ?_⟩
  · have : ApplyMatToU32 lib mat x = (do
        let a ← GenMatGf2 32 1
        initVec (x.setWidth 64) a
        let a ← MatGf2Mul lib mat a a
        let result ← getDigitalFromVec a
        MatGf2Free a
        pure (result)) := rfl
    rw [this, e1, MM_bind e2, MM_bind e3, MM_bind (free_run (two_ok hs m m') (two_obj s m m')), freeTwo hs]
    rfl
  · rintro env M rfl
    obtain ⟨z, ez, -, hz⟩ := C02_MatMulNumM32 env M x 0
    rw [ez]
    congr 1
    exact vecS_inj (hz.trans hv.symm)

/-- C65: `ApplyMatToU64` returns the product of the matrix and the number, the same as `MatMulNumM64` for the same matrix; all matrices in memory are as before. -/
theorem C65_ApplyMatToU64 (hl : lib.Ok) (hs : s.Ok) {mat : Nat} {A : Matrix (Fin 64) (Fin 64) (ZMod 2)}
    (hA : Points s mat A) (x : BitVec 64) :
    ∃ y, ApplyMatToU64 lib mat x s = .ok (y, { s with next := s.next + 2 }) ∧ vec64 y = A.mulVec (vec64 x) ∧
      ∀ (env : Env) (M : M64), mat64 M = A → MatMulNumM64 env M x = .ok y := by
  obtain ⟨m, e1, hm⟩ := newVec_bind (n := 64) hs x (fun a => do
    let a ← MatGf2Mul lib mat a a
    let result ← get64FromVec a
    MatGf2Free a
    pure (result))
  obtain ⟨m', e2, hm'⟩ := mulTwo_run hl hs hA x hm
  obtain ⟨y, e3, hy, -⟩ := C65_get64FromVec (two_ok hs m m') (n := 64) (by decide) ⟨m', two_obj s m m', hm'⟩
  have hv : vec64 (y) = A.mulVec (vec64 x) := by
    funext i
    have h := congrFun (congrFun hy i) 0
    rw [colVec_mulVec] at h
    have h2 : vecOf 64 (bitS 64) x = vec64 x := by
      rfl
    rw [h2] at h
    rw [← h]
    rfl
  refine ⟨y, ?_, hv, ?_⟩
  · have : ApplyMatToU64 lib mat x = (do
        let a ← GenMatGf2 64 1
        initVec x a
        let a ← MatGf2Mul lib mat a a
        let result ← get64FromVec a
        MatGf2Free a
        pure (result)) := rfl
    rw [this, e1, MM_bind e2, MM_bind e3, MM_bind (free_run (two_ok hs m m') (two_obj s m m')), freeTwo hs]
    rfl
  · rintro env M rfl
    obtain ⟨z, ez, -, hz⟩ := C02_MatMulNumM64 env M x 0
    rw [ez]
    congr 1
    exact vecS_inj (hz.trans hv.symm)

/-- C65: `ApplyMatToU128` returns the product of the matrix and the number; all matrices in memory are as before. -/
theorem C65_ApplyMatToU128 (hl : lib.Ok) (hs : s.Ok) {mat : Nat} {A : Matrix (Fin 128) (Fin 128) (ZMod 2)}
    (hA : Points s mat A) (x : BitVec 128) :
    ∃ y, ApplyMatToU128 lib mat x s = .ok (y, { s with next := s.next + 2 }) ∧ vecOf 128 (bitS 128) y = A.mulVec (vecOf 128 (bitS 128) x) := by
  obtain ⟨m, e1, hm⟩ := newVec_bind (n := 128) hs x (fun a => do
    let a ← MatGf2Mul lib mat a a
    let result ← get128FromVec a
    MatGf2Free a
    pure (result))
  obtain ⟨m', e2, hm'⟩ := mulTwo_run hl hs hA x hm
  obtain ⟨y, e3, hy, -⟩ := C65_get128FromVec (two_ok hs m m') (n := 128) (by decide) ⟨m', two_obj s m m', hm'⟩
  have hv : vecOf 128 (bitS 128) (y) = A.mulVec (vecOf 128 (bitS 128) x) := by
    funext i
    have h := congrFun (congrFun hy i) 0
    rw [colVec_mulVec] at h
    have h2 : vecOf 128 (bitS 128) x = vecOf 128 (bitS 128) x := by
      rfl
    rw [h2] at h
    rw [← h]
    rfl
  refine ⟨y, ?_, hv⟩
  · have : ApplyMatToU128 lib mat x = (do
        let a ← GenMatGf2 128 1
        initVec x a
        let a ← MatGf2Mul lib mat a a
        let result ← get128FromVec a
        MatGf2Free a
        pure (result)) := rfl
    rw [this, e1, MM_bind e2, MM_bind e3, MM_bind (free_run (two_ok hs m m') (two_obj s m m')), freeTwo hs]
    rfl

example : valueOf (ApplyMatToU8 exLib 1 0x53 exHeap) = some 0xf5 := by decide +kernel

/-! ## Vector plus number -/

/-- C65: `AddMatToU32` returns the sum of the column and the number.  (For the memory it leaves behind see C66.) -/
theorem C65_AddMatToU32 (hs : s.Ok) {mat : Nat} {A : Matrix (Fin 32) (Fin 1) (ZMod 2)} (hA : Points s mat A)
    (x : BitVec 32) :
    ∃ y m, AddMatToU32 mat x s = .ok (y, { push s m with next := s.next + 2 }) ∧ colVec 32 y = A + colVec 32 x ∧
      Is m (colVec 32 x) := by
  obtain ⟨m, e1, hm⟩ := newVec_bind (n := 32) hs (x.setWidth 64) (fun a => do
    let a ← mzd_add mat a
    let result ← get32FromVec a
    MatGf2Free a
    pure result)
  obtain ⟨m', e2, hm'⟩ := add_run (hs.push m) (hA.push hs m) (Points.of_push hm)
  obtain ⟨y, e3, hy, -⟩ := C65_get32FromVec ((hs.push m).push m') (n := 32) rfl (Points.of_push hm')
  have h2 : colVec 32 (x.setWidth 64) = colVec 32 x := by
    exact setWidth_bit (w := 32) (v := 64) (by decide) 32 (Nat.le_refl _) x
  rw [h2] at hy hm
  refine ⟨y, m, ?_, hy, hm⟩
  have : AddMatToU32 mat x = (do
      let a ← GenMatGf2 32 1
      initVec (x.setWidth 64) a
      let a ← mzd_add mat a
      let result ← get32FromVec a
      MatGf2Free a
      pure result) := rfl
  rw [this, e1]
  have e2' : mzd_add mat s.next (push s m) = .ok ((push s m).next, push (push s m) m') := e2
  rw [MM_bind e2', MM_bind e3, MM_bind (free_run ((hs.push m).push m') (push_self _ _)), setObj_push (hs.push m)]
  rfl

/-- C65: `AddMatToU64` returns the sum of the column and the number.  (For the memory it leaves behind see C66.) -/
theorem C65_AddMatToU64 (hs : s.Ok) {mat : Nat} {A : Matrix (Fin 64) (Fin 1) (ZMod 2)} (hA : Points s mat A)
    (x : BitVec 64) :
    ∃ y m, AddMatToU64 mat x s = .ok (y, { push s m with next := s.next + 2 }) ∧ colVec 64 y = A + colVec 64 x ∧
      Is m (colVec 64 x) := by
  obtain ⟨m, e1, hm⟩ := newVec_bind (n := 64) hs x (fun a => do
    let a ← mzd_add mat a
    let result ← get64FromVec a
    MatGf2Free a
    pure result)
  obtain ⟨m', e2, hm'⟩ := add_run (hs.push m) (hA.push hs m) (Points.of_push hm)
  obtain ⟨y, e3, hy, -⟩ := C65_get64FromVec ((hs.push m).push m') (n := 64) rfl (Points.of_push hm')
  have h2 : colVec 64 x = colVec 64 x := by
    rfl
  rw [h2] at hy hm
  refine ⟨y, m, ?_, hy, hm⟩
  have : AddMatToU64 mat x = (do
      let a ← GenMatGf2 64 1
      initVec x a
      let a ← mzd_add mat a
      let result ← get64FromVec a
      MatGf2Free a
      pure result) := rfl
  rw [this, e1]
  have e2' : mzd_add mat s.next (push s m) = .ok ((push s m).next, push (push s m) m') := e2
  rw [MM_bind e2', MM_bind e3, MM_bind (free_run ((hs.push m).push m') (push_self _ _)), setObj_push (hs.push m)]
  rfl

/-- C65: `AddMatToU128` returns the sum of the column and the number; all matrices in memory are as before. -/
theorem C65_AddMatToU128 (hs : s.Ok) {mat : Nat} {A : Matrix (Fin 128) (Fin 1) (ZMod 2)} (hA : Points s mat A)
    (x : BitVec 128) :
    ∃ y, AddMatToU128 mat x s = .ok (y, { s with next := s.next + 2 }) ∧ colVec 128 y = A + colVec 128 x := by
  obtain ⟨m, e1, hm⟩ := newVec_bind (n := 128) hs x (fun a => do
    let a ← MatGf2Add mat a a
    let result ← get128FromVec a
    MatGf2Free a
    pure result)
  obtain ⟨m', e2, hm'⟩ := addTwo_run hs hA x hm
  obtain ⟨y, e3, hy, -⟩ := C65_get128FromVec (two_ok hs m m') (n := 128) rfl ⟨m', two_obj s m m', hm'⟩
  refine ⟨y, ?_, hy⟩
  have : AddMatToU128 mat x = (do
      let a ← GenMatGf2 128 1
      initVec x a
      let a ← MatGf2Add mat a a
      let result ← get128FromVec a
      MatGf2Free a
      pure result) := rfl
  rw [this, e1, MM_bind e2, MM_bind e3, MM_bind (free_run (two_ok hs m m') (two_obj s m m')), freeTwo hs]
  rfl

example : valueOf (AddMatToU32 2 0x0000ffff exHeap) = some 0x9249db6d := by decide +kernel

/-- C65: `GenMatAddU8`, `GenMatAddU16`, `GenMatAddU32` return a new matrix, the sum of the column and the number.  (A second
new matrix is left behind, see C66.) -/
theorem C65_GenMatAddU (hs : s.Ok) {n : Nat} (hn : n ≤ 64) {mat : Nat} {A : Matrix (Fin n) (Fin 1) (ZMod 2)}
    (hA : Points s mat A) (x : BitVec n) :
    ∃ m m', GenMatAddU n mat x s = .ok (s.next + 1, push (push s m) m') ∧ Is m' (A + colVec n x) := by
  obtain ⟨m, e1, hm⟩ := newVec_bind (n := n) hs (x.setWidth 64) (fun a => mzd_add mat a)
  obtain ⟨m', e2, hm'⟩ := add_run (hs.push m) (hA.push hs m) (Points.of_push hm)
  rw [setWidth_bit hn n (Nat.le_refl _)] at hm'
  refine ⟨m, m', ?_, hm'⟩
  have : GenMatAddU n mat x = (do
      let a ← GenMatGf2 n 1
      initVec (x.setWidth 64) a
      mzd_add mat a) := rfl
  rw [this, e1]
  exact e2

/-! ## Matrices -/

/-- C65: `GenIndMatrix` is the identity matrix. -/
theorem C65_GenIndMatrix (hs : s.Ok) (n : Nat) :
    ∃ m, GenIndMatrix n s = .ok (s.next, push s m) ∧ Is m (1 : Matrix (Fin n) (Fin n) (ZMod 2)) := ind_run hs n

/-- C65: `GenZeroVec` is the zero column. -/
theorem C65_GenZeroVec (hs : s.Ok) (n : Nat) :
    ∃ m, GenZeroVec n s = .ok (s.next, push s m) ∧ Is m (0 : Matrix (Fin n) (Fin 1) (ZMod 2)) := zeroVec_run hs n

/-- C65: `GenMatGf2Mul` is the product. -/
theorem C65_GenMatGf2Mul (hl : lib.Ok) (hs : s.Ok) {a b r k c : Nat} {A : Matrix (Fin r) (Fin k) (ZMod 2)}
    {B : Matrix (Fin k) (Fin c) (ZMod 2)} (hk : 0 < k) (hc : 0 < c) (ha : Points s a A) (hb : Points s b B) :
    ∃ m, GenMatGf2Mul lib a b s = .ok (s.next, push s m) ∧ Is m (A * B) := mul_run hl hs ha hb

/-- C65: `GenMatGf2Add` is the sum. -/
theorem C65_GenMatGf2Add (hs : s.Ok) {a b r c : Nat} {A B : Matrix (Fin r) (Fin c) (ZMod 2)} (ha : Points s a A)
    (hb : Points s b B) : ∃ m, GenMatGf2Add a b s = .ok (s.next, push s m) ∧ Is m (A + B) := add_run hs ha hb

/-- C65: `GenMatGf2Inv` is the inverse of an invertible matrix. -/
theorem C65_GenMatGf2Inv (hl : lib.Ok) (hs : s.Ok) {a n : Nat} {A : Matrix (Fin n) (Fin n) (ZMod 2)} (hn : 0 < n)
    (ha : Points s a A) (hu : IsUnit A) : ∃ m, GenMatGf2Inv lib a s = .ok (s.next, push s m) ∧ Is m A⁻¹ := inv_run hl hs ha hu

/-- C65: `GenMatGf2Copy` is the same matrix, if there are columns or no rows. -/
theorem C65_GenMatGf2Copy (hs : s.Ok) {a r c : Nat} {A : Matrix (Fin r) (Fin c) (ZMod 2)} (hrc : 0 < c ∨ r = 0) (ha : Points s a A) :
    ∃ m, GenMatGf2Copy a s = .ok (s.next, push s m) ∧ Is m A := copy_run hs ha

/-- C65: `GenMatGf2Stack` puts one matrix on top of the other. -/
theorem C65_GenMatGf2Stack (hs : s.Ok) {a b r₁ r₂ c : Nat} {A : Matrix (Fin r₁) (Fin c) (ZMod 2)}
    {B : Matrix (Fin r₂) (Fin c) (ZMod 2)} (ha : Points s a A) (hb : Points s b B) :
    ∃ m, GenMatGf2Stack a b s = .ok (s.next, push s m) ∧ Is m (stackMat A B) := stack_run hs ha hb

/-- C65: `GenMatGf2Concat` puts one matrix beside the other. -/
theorem C65_GenMatGf2Concat (hs : s.Ok) {a b r c₁ c₂ : Nat} {A : Matrix (Fin r) (Fin c₁) (ZMod 2)}
    {B : Matrix (Fin r) (Fin c₂) (ZMod 2)} (ha : Points s a A) (hb : Points s b B) :
    ∃ m, GenMatGf2Concat a b s = .ok (s.next, push s m) ∧ Is m (concatMat A B) := concat_run hs ha hb

/-- C65: `GenMatGf2Diag` puts two square matrices on the diagonal. -/
theorem C65_GenMatGf2Diag (hs : s.Ok) {a b n₁ n₂ : Nat} {A : Matrix (Fin n₁) (Fin n₁) (ZMod 2)}
    {B : Matrix (Fin n₂) (Fin n₂) (ZMod 2)} (ha : Points s a A) (hb : Points s b B) :
    ∃ m, GenMatGf2Diag a b s = .ok (s.next, push s m) ∧ Is m (diagMat A B) := by
  have h0 : ∀ {p r c : Nat} {X : Matrix (Fin r) (Fin c) (ZMod 2)}, Points s p X → p ≠ 0 := by
    rintro p r c X ⟨m, h, -⟩; exact hs.ne_zero h
  obtain ⟨m, e, hm⟩ := diag_run hs ha hb (.inl rfl) (h0 ha) (h0 hb)
  refine ⟨m, ?_, hm⟩
  rw [GenMatGf2Diag, e, setObj_eq_self (hs.push m).null]

example : Points exHeap 1 (bitMat 8 8 fun i j => i = j ∨ i + 1 = j) := ⟨_, rfl, rfl, rfl, fun _ _ => rfl⟩
example : Points exHeap 2 (bitMat 32 1 fun i _ => i % 3 = 0) := ⟨_, rfl, rfl, rfl, fun _ _ => rfl⟩
example : valueOf ((do let d ← GenMatGf2Diag 1 1; MatGf2Get d 9 10 : MM Bool) exHeap) = some true := by decide +kernel
example : valueOf ((do let d ← GenMatGf2Concat 3 3; MatGf2Get d 1 4 : MM Bool) exHeap) = some true := by decide +kernel
example : valueOf ((do let d ← GenMatGf2Mul exLib 1 1; MatGf2Get d 0 2 : MM Bool) exHeap) = some true := by decide +kernel

end WB
