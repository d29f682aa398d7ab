import Verif.Proof.AffineM4ri
import Verif.Prop.C17
import Verif.Prop.C67
import Verif.Prop.C69

/-!
# C70 — the affine transforms of the M4RI based SM4 demo
-/
namespace WB
open m4ri

variable {lib : M4ri} {s : Heap}

/-! ## Application to numbers -/

/-- C70: `ApplyAffineToU8` returns the matrix times the number plus the vector, the same as `affineU8` for the same
transform; all matrices in memory are as before. -/
theorem C70_ApplyAffineToU8 (hl : lib.Ok) (hs : s.Ok) {aff : AffineTransform} {A : Matrix (Fin 8) (Fin 8) (ZMod 2)}
    {v : Matrix (Fin 8) (Fin 1) (ZMod 2)} (hA : Points s aff.linear_map A) (hv : Points s aff.vector_translation v)
    (x : BitVec 8) :
    ∃ y, ApplyAffineToU8 lib aff x s = .ok (y, { s with next := s.next + 3 }) ∧
      (∀ i, vec8 y i = A.mulVec (vec8 x) i + v i 0) ∧
      ∀ (env : Env) (f : Aff8), mat8 f.Mat = A → (∀ i, vec8 f.Vec i = v i 0) → affineU8 env f x = .ok y := by
  obtain ⟨m, e1, hm⟩ := apply_run hl hs hA hv (x.setWidth 64) (fun mat_x => do
    let result ← getDigitalFromVec mat_x
    MatGf2Free mat_x
    pure (result.setWidth 8))
  obtain ⟨y, e3, hy, -⟩ := C65_getDigitalFromVec ((hs.skip 2).push m) (n := 8) (by decide) (Points.of_push hm)
  have hval : ∀ i, vec8 (y.setWidth 8) i = A.mulVec (vec8 x) i + v i 0 := by
    intro i
    have h := colVec_mul A (x.setWidth 64) v hy i
    have h2 : vecOf 8 (bitS 8) (x.setWidth 64) = vec8 x :=
      funext fun i => congrFun (congrFun (setWidth_bit (w := 8) (v := 64) (by decide) 8 (Nat.le_refl _) x) i) 0
    rw [h2] at h
    rw [← h]
    have hi := i.2
    show bitF (bitS 8 (y.setWidth 8) i) = bitF (bitS 8 y i)
    simp [bitS, show 8 - 1 - i.val < 8 by omega]
  refine ⟨(y.setWidth 8), ?_, hval, ?_⟩
  · have e2 : (do
        let result ← getDigitalFromVec (s.next + 2)
        MatGf2Free (s.next + 2)
        pure (result.setWidth 8) : MM (BitVec 8)) (push { s with next := s.next + 2 } m)
        = .ok ((y.setWidth 8), { s with next := s.next + 3 }) := by
      have e3' : getDigitalFromVec (s.next + 2) (push { s with next := s.next + 2 } m) = .ok (y, _) := e3
      rw [MM_bind e3', MM_bind (skip_free hs m 2)]
      rfl
    exact e1.trans e2
  · rintro env f rfl hf
    obtain ⟨z, ez, hz⟩ := C17_affineU8 env f x
    rw [ez]
    congr 1
    refine vecS_inj (funext fun i => ?_)
    have h1 := congrFun hz i
    have h2 := hval i
    rw [← hf i] at h2
    exact h1.trans h2.symm

/-- C70: `ApplyAffineToU16` returns the matrix times the number plus the vector, the same as `affineU16` for the same
transform; all matrices in memory are as before. -/
theorem C70_ApplyAffineToU16 (hl : lib.Ok) (hs : s.Ok) {aff : AffineTransform} {A : Matrix (Fin 16) (Fin 16) (ZMod 2)}
    {v : Matrix (Fin 16) (Fin 1) (ZMod 2)} (hA : Points s aff.linear_map A) (hv : Points s aff.vector_translation v)
    (x : BitVec 16) :
    ∃ y, ApplyAffineToU16 lib aff x s = .ok (y, { s with next := s.next + 3 }) ∧
      (∀ i, vec16 y i = A.mulVec (vec16 x) i + v i 0) ∧
      ∀ (env : Env) (f : Aff16), mat16 f.Mat = A → (∀ i, vec16 f.Vec i = v i 0) → affineU16 env f x = .ok y := by
  obtain ⟨m, e1, hm⟩ := apply_run hl hs hA hv (x.setWidth 64) (fun mat_x => do
    let result ← getDigitalFromVec mat_x
    MatGf2Free mat_x
    pure (result.setWidth 16))
  obtain ⟨y, e3, hy, -⟩ := C65_getDigitalFromVec ((hs.skip 2).push m) (n := 16) (by decide) (Points.of_push hm)
  have hval : ∀ i, vec16 (y.setWidth 16) i = A.mulVec (vec16 x) i + v i 0 := by
    intro i
    have h := colVec_mul A (x.setWidth 64) v hy i
    have h2 : vecOf 16 (bitS 16) (x.setWidth 64) = vec16 x :=
      funext fun i => congrFun (congrFun (setWidth_bit (w := 16) (v := 64) (by decide) 16 (Nat.le_refl _) x) i) 0
    rw [h2] at h
    rw [← h]
    have hi := i.2
    show bitF (bitS 16 (y.setWidth 16) i) = bitF (bitS 16 y i)
    simp [bitS, show 16 - 1 - i.val < 16 by omega]
  refine ⟨(y.setWidth 16), ?_, hval, ?_⟩
  · have e2 : (do
        let result ← getDigitalFromVec (s.next + 2)
        MatGf2Free (s.next + 2)
        pure (result.setWidth 16) : MM (BitVec 16)) (push { s with next := s.next + 2 } m)
        = .ok ((y.setWidth 16), { s with next := s.next + 3 }) := by
      have e3' : getDigitalFromVec (s.next + 2) (push { s with next := s.next + 2 } m) = .ok (y, _) := e3
      rw [MM_bind e3', MM_bind (skip_free hs m 2)]
      rfl
    exact e1.trans e2
  · rintro env f rfl hf
    obtain ⟨z, ez, hz⟩ := C17_affineU16 env f x
    rw [ez]
    congr 1
    refine vecS_inj (funext fun i => ?_)
    have h1 := congrFun hz i
    have h2 := hval i
    rw [← hf i] at h2
    exact h1.trans h2.symm

/-- C70: `ApplyAffineToU32` returns the matrix times the number plus the vector, the same as `affineU32` for the same
transform; all matrices in memory are as before. -/
theorem C70_ApplyAffineToU32 (hl : lib.Ok) (hs : s.Ok) {aff : AffineTransform} {A : Matrix (Fin 32) (Fin 32) (ZMod 2)}
    {v : Matrix (Fin 32) (Fin 1) (ZMod 2)} (hA : Points s aff.linear_map A) (hv : Points s aff.vector_translation v)
    (x : BitVec 32) :
    ∃ y, ApplyAffineToU32 lib aff x s = .ok (y, { s with next := s.next + 3 }) ∧
      (∀ i, vec32 y i = A.mulVec (vec32 x) i + v i 0) ∧
      ∀ (env : Env) (f : Aff32), mat32 f.Mat = A → (∀ i, vec32 f.Vec i = v i 0) → affineU32 env f x = .ok y := by
  obtain ⟨m, e1, hm⟩ := apply_run hl hs hA hv (x.setWidth 64) (fun mat_x => do
    let result ← get32FromVec mat_x
    MatGf2Free mat_x
    pure result)
  obtain ⟨y, e3, hy, -⟩ := C65_get32FromVec ((hs.skip 2).push m) (n := 32) rfl (Points.of_push hm)
  have hval : ∀ i, vec32 y i = A.mulVec (vec32 x) i + v i 0 := by
    intro i
    have h := colVec_mul A (x.setWidth 64) v hy i
    have h2 : vecOf 32 (bitS 32) (x.setWidth 64) = vec32 x :=
      funext fun i => congrFun (congrFun (setWidth_bit (w := 32) (v := 64) (by decide) 32 (Nat.le_refl _) x) i) 0
    rw [h2] at h
    rw [← h]
  refine ⟨y, ?_, hval, ?_⟩
  · have e2 : (do
        let result ← get32FromVec (s.next + 2)
        MatGf2Free (s.next + 2)
        pure result : MM (BitVec 32)) (push { s with next := s.next + 2 } m)
        = .ok (y, { s with next := s.next + 3 }) := by
      have e3' : get32FromVec (s.next + 2) (push { s with next := s.next + 2 } m) = .ok (y, _) := e3
      rw [MM_bind e3', MM_bind (skip_free hs m 2)]
      rfl
    exact e1.trans e2
  · rintro env f rfl hf
    obtain ⟨z, ez, hz⟩ := C17_affineU32 env f x
    rw [ez]
    congr 1
    refine vecS_inj (funext fun i => ?_)
    have h1 := congrFun hz i
    have h2 := hval i
    rw [← hf i] at h2
    exact h1.trans h2.symm

/-- A heap with an 8 × 8 matrix at address 1 and a column of 8 bits at address 2. -/
def exHeapA : Heap where
  obj p := match p with
    | 1 => some ⟨8, 8, fun i j => i = j ∨ (i + 1 = j)⟩
    | 2 => some ⟨8, 1, fun i _ => i % 3 = 0⟩
    | _ => none
  next := 3
  rand := 0
  out := []

theorem exHeapA_ok : exHeapA.Ok where
  pos := by decide
  null := rfl
  fresh p hp := by
    have : 3 ≤ p := hp
    obtain ⟨q, rfl⟩ : ∃ q, p = q + 3 := ⟨p - 3, by omega⟩
    rfl

example : Points exHeapA 1 (bitMat 8 8 fun i j => i = j ∨ (i + 1 = j)) := ⟨_, rfl, rfl, rfl, fun _ _ => rfl⟩
example : Points exHeapA 2 (bitMat 8 1 fun i _ => i % 3 = 0) := ⟨_, rfl, rfl, rfl, fun _ _ => rfl⟩
example : valueOf (ApplyAffineToU8 exLib ⟨1, 2⟩ 0x53 exHeapA) = some 0x67 := by decide +kernel

/-! ## Application to matrices -/

/-- C70: `ApplyAffineTransform` stores in `*dst` a new matrix, the matrix of the transform times the argument plus the vector,
and frees the old value of `*dst`, which may be the argument; the other matrices stay. -/
theorem C70_ApplyAffineTransform (hl : lib.Ok) (hs : s.Ok) {aff : AffineTransform} {mat dst n : Nat} (hn : 0 < n)
    {A : Matrix (Fin n) (Fin n) (ZMod 2)} {v x : Matrix (Fin n) (Fin 1) (ZMod 2)} (hA : Points s aff.linear_map A)
    (hv : Points s aff.vector_translation v) (hx : Points s mat x) (hd : CanFree s dst)
    (hne : dst ≠ aff.vector_translation) :
    ∃ p s', ApplyAffineTransform lib aff mat dst s = .ok (p, s') ∧ Points s' p (A * x + v) ∧ s.obj p = none ∧
      (∀ q m, q ≠ dst → s.obj q = some m → s'.obj q = some m) ∧ s'.obj dst = none ∧
      s'.live + (if dst = 0 then 0 else 1) = s.live + 1 ∧ s'.Ok := by
  obtain ⟨m1, e1, h1⟩ := mul_to hl hs hA hx hd
  have ho : Own s (if dst = 0 then ∅ else {dst}) := by
    refine ⟨hs, ?_⟩
    intro p hp
    rcases hd with rfl | hd
    · simp at hp
    · rw [if_neg (by rintro rfl; obtain ⟨m, hm⟩ := hd; rw [hs.null] at hm; cases hm)] at hp
      rw [Finset.mem_singleton] at hp; subst hp; exact hd
  have ht : dst = 0 ∨ dst ∈ (if dst = 0 then (∅ : Finset Nat) else {dst}) := by
    by_cases h : dst = 0
    · exact .inl h
    · exact .inr (by rw [if_neg h]; simp)
  have hcard : (if dst = 0 then (∅ : Finset Nat) else {dst}).card = if dst = 0 then 0 else 1 := by
    split_ifs <;> rfl
  generalize hT : (if dst = 0 then (∅ : Finset Nat) else {dst}) = T at ho ht hcard
  have hTd : ∀ q ∈ T, q = dst := by
    intro q hq
    rw [← hT] at hq
    by_cases h : dst = 0
    · rw [if_pos h] at hq; simp at hq
    · rw [if_neg h] at hq; simpa using hq
  obtain ⟨p1, s1, e1, x1, hp1, n1, z1, d1, t1, k1⟩ := (mul_to hl hs hA hx hd).run ho ht
  have hv1 : Points s1 aff.vector_translation v := by
    obtain ⟨m, hm, h⟩ := hv
    exact ⟨m, (k1 _ _ hne.symm hm).1, h⟩
  have hT1 : p1 ∈ (insert p1 T).erase dst := Finset.mem_erase.2 ⟨d1, Finset.mem_insert_self _ _⟩
  obtain ⟨p2, s2, e2, x2, hp2, n2, z2, d2, t2, k2⟩ :=
    (add_to x1.own.ok hv1 hp1 (.inr (x1.own.live _ hT1))).run x1.own (.inr hT1)
  have hfresh : s.obj p2 = none := by
    by_contra h
    obtain ⟨m, hm⟩ := Option.ne_none_iff_exists'.1 h
    by_cases hq : p2 = dst
    · subst hq
      have h3 : s.next ≤ p1 := by
        by_contra h4
        obtain ⟨mm, eq1, -⟩ := mul_to hl hs hA hx hd
        rw [eq1] at e1
        cases e1
        omega
      obtain ⟨mm, eq2, -⟩ := add_to x1.own.ok hv1 hp1 (.inr (x1.own.live _ hT1))
      rw [eq2] at e2
      cases e2
      have := hs.lt hm
      have := x1.next
      omega
    · have := (k1 _ _ hq hm).1
      rw [n2] at this; cases this
  refine ⟨p2, s2, ?_, ?_, hfresh, ?_, ?_, ?_, x2.own.ok⟩
  · rw [ApplyAffineTransform, MM_bind e1]; exact e2
  · rw [add_comm]; exact hp2
  · intro q m hq hm
    have h1 := k1 q m hq hm
    exact (k2 q m h1.2 h1.1).1
  · obtain ⟨mm, eq1, -⟩ := mul_to hl hs hA hx hd
    rw [eq1] at e1
    cases e1
    obtain ⟨mm2, eq2, -⟩ := add_to x1.own.ok hv1 hp1 (.inr (x1.own.live _ hT1))
    rw [eq2] at e2
    cases e2
    have hlt : dst < s.next := by
      rcases hd with rfl | ⟨m, hm⟩
      · exact hs.pos
      · exact hs.lt hm
    have a1 : dst ≠ s.next := by omega
    have a2 : dst ≠ s.next + 1 := by omega
    rw [setObj_ne _ _ a1, push_ne _ _ a2]
    exact setObj_self _ _ _
  · have l1 := (x1.trans x2).live
    have c1 : ((insert p2 ((insert p1 T).erase dst)).erase p1).card = 1 := by
      have : (insert p2 ((insert p1 T).erase dst)).erase p1 = {p2} := by
        ext q
        simp only [Finset.mem_erase, Finset.mem_insert, Finset.mem_singleton]
        constructor
        · rintro ⟨h1, h2 | ⟨h2, h3 | h3⟩⟩
          · exact h2
          · exact absurd h3 h1
          · exact absurd (hTd q h3) h2
        · rintro rfl
          exact ⟨d2, .inl rfl⟩
      rw [this]; rfl
    rw [c1, hcard] at l1
    omega

/-- C70: if `*dst` is the vector of the transform, `ApplyAffineTransform` frees the vector and then uses it. -/
theorem C70_ApplyAffineTransform_vector (hl : lib.Ok) (hs : s.Ok) {aff : AffineTransform} {mat n : Nat} (hn : 0 < n)
    {A : Matrix (Fin n) (Fin n) (ZMod 2)} {v x : Matrix (Fin n) (Fin 1) (ZMod 2)} (hA : Points s aff.linear_map A)
    (hv : Points s aff.vector_translation v) (hx : Points s mat x) :
    ApplyAffineTransform lib aff mat aff.vector_translation s = .error .freed := by
  obtain ⟨m, e, -⟩ := mul_to hl hs hA hx (.inr ⟨_, hv.choose_spec.1⟩)
  have h0 := hv.ne_zero hs
  rw [ApplyAffineTransform, MM_bind e]
  refine MM_bind_err ?_
  exact MM_bind_err (deref_freed h0 (setObj_self _ _ _))

example : Points exHeapA 2 (bitMat 8 1 fun i _ => i % 3 = 0) ∧ CanFree exHeapA 0 := ⟨⟨_, rfl, rfl, rfl, fun _ _ => rfl⟩, .inl rfl⟩

/-! ## Generation -/

/-- C70: when `GenRandomAffineTransform` returns, the two transforms are inverse to each other: the first consists of an
invertible matrix `A` and a vector `v`, the second of `A⁻¹` and `A⁻¹ v`.  The matrices that were there before stay, and there are
exactly four more.  It returns unless `fuel` successive draws give matrices that are not invertible. -/
theorem C70_GenRandomAffineTransform (hl : lib.Ok) (hs : s.Ok) {n : Nat} (hn : 0 < n) (fuel : Nat) :
    (GenRandomAffineTransform lib fuel n s = .error (.c .diverge) ∧
      ∃ j, ∀ i < fuel, ¬ IsUnit (bitMat n n (lib.rnd (j + i)))) ∨
    ∃ f g s', GenRandomAffineTransform lib fuel n s = .ok ((f, g), s') ∧
      (∃ (A : Matrix (Fin n) (Fin n) (ZMod 2)) (v : Matrix (Fin n) (Fin 1) (ZMod 2)), IsUnit A ∧
        Points s' f.linear_map A ∧ Points s' f.vector_translation v ∧
        Points s' g.linear_map A⁻¹ ∧ Points s' g.vector_translation (A⁻¹ * v)) ∧
      (∀ q m, s.obj q = some m → s'.obj q = some m) ∧ s'.live = s.live + 4 ∧ s'.Ok := by
  rcases genAffine_run hl hn fuel (Own.empty hs) with ⟨d, e⟩ | ⟨⟨f, g⟩, s', e, h1, A, v, hu, ⟨a1, a2⟩, ⟨b1, b2⟩⟩
  · left
    refine ⟨e, ?_⟩
    unfold Lucky at d
    push Not at d
    exact d
  · right
    refine ⟨f, g, s', e, ⟨A, v, hu, a1.1, a2.1, b1.1, b2.1⟩, ?_, ?_, h1.own.ok⟩
    · intro q m hm
      exact (h1.keep q m hm (Finset.notMem_empty _)).1
    · have := h1.live
      simpa using this

/-- C70: the 32-bit transforms that `GenRandomAffineTransform` returns undo each other, in both orders. -/
theorem C70_inverse32 (hl : lib.Ok) (hs : s.Ok) {fuel : Nat} {f g : AffineTransform} {s' : Heap}
    (h : GenRandomAffineTransform lib fuel 32 s = .ok ((f, g), s')) (x : BitVec 32) :
    (∃ y s'', ApplyAffineToU32 lib f x s' = .ok (y, s'') ∧ ∃ s3, ApplyAffineToU32 lib g y s'' = .ok (x, s3)) ∧
    ∃ y s'', ApplyAffineToU32 lib g x s' = .ok (y, s'') ∧ ∃ s3, ApplyAffineToU32 lib f y s'' = .ok (x, s3) := by
  obtain ⟨e, -⟩ | ⟨f', g', s1, e, ⟨A, v, hu, p1, p2, p3, p4⟩, -, -, ok⟩ :=
    C70_GenRandomAffineTransform hl hs (n := 32) (by decide) fuel
  · rw [h] at e; cases e
  rw [h] at e
  cases e
  have hd := (Matrix.isUnit_iff_isUnit_det _).1 hu
  have e4 : (fun i => (A⁻¹ * v) i 0) = A⁻¹.mulVec (fun i => v i 0) := by
    funext i; simp [Matrix.mul_apply, Matrix.mulVec, dotProduct]
  have ok2 : ({ s' with next := s'.next + 3 } : Heap).Ok := ok.skip 3
  have zz : ∀ a : Fin 32 → ZMod 2, a + a = 0 := fun a => funext fun i => CharTwo.add_self_eq_zero (a i)
  constructor
  · obtain ⟨y, ey, hy, -⟩ := C70_ApplyAffineToU32 hl ok p1 p2 x
    refine ⟨y, _, ey, ?_⟩
    obtain ⟨z, ez, hz, -⟩ := C70_ApplyAffineToU32 hl ok2 (aff := g) (A := A⁻¹) (v := A⁻¹ * v) p3 p4 y
    have : z = x := by
      refine vecS_inj ?_
      have hy' : vec32 y = A.mulVec (vec32 x) + fun i => v i 0 := funext hy
      have hz' : vec32 z = A⁻¹.mulVec (vec32 y) + fun i => (A⁻¹ * v) i 0 := funext hz
      show vec32 z = vec32 x
      rw [hz', e4, hy', Matrix.mulVec_add, Matrix.mulVec_mulVec, Matrix.nonsing_inv_mul _ hd, Matrix.one_mulVec, add_assoc,
        zz, add_zero]
    rw [this] at ez
    exact ⟨_, ez⟩
  · obtain ⟨y, ey, hy, -⟩ := C70_ApplyAffineToU32 hl ok p3 p4 x
    refine ⟨y, _, ey, ?_⟩
    obtain ⟨z, ez, hz, -⟩ := C70_ApplyAffineToU32 hl ok2 (aff := f) (A := A) (v := v) p1 p2 y
    have : z = x := by
      refine vecS_inj ?_
      have hy' : vec32 y = A⁻¹.mulVec (vec32 x) + fun i => (A⁻¹ * v) i 0 := funext hy
      have hz' : vec32 z = A.mulVec (vec32 y) + fun i => v i 0 := funext hz
      show vec32 z = vec32 x
      rw [hz', hy', e4, Matrix.mulVec_add, Matrix.mulVec_mulVec, Matrix.mulVec_mulVec, Matrix.mul_nonsing_inv _ hd,
        Matrix.one_mulVec, Matrix.one_mulVec, add_assoc, zz, add_zero]
    rw [this] at ez
    exact ⟨_, ez⟩

/-- A library that satisfies the contract and whose first draw is invertible. -/
noncomputable def luckyLib : M4ri := { exLib with rnd := fun _ i j => i ≤ j }

theorem luckyLib_ok : luckyLib.Ok := ⟨exLib_ok.mul, exLib_ok.inv, exLib_ok.transpose⟩

/-- With this library the function returns. -/
example : ∃ r, GenRandomAffineTransform luckyLib 1 32 exHeap = .ok r := by
  rcases C70_GenRandomAffineTransform luckyLib_ok exHeap_ok (n := 32) (by decide) 1 with ⟨-, j, h⟩ | ⟨f, g, s', e, -⟩
  · refine absurd ?_ (h 0 Nat.one_pos)
    rw [Matrix.isUnit_iff_isUnit_det, Matrix.det_of_upperTriangular]
    · rw [Finset.prod_eq_one]
      · exact isUnit_one
      · intro i _
        show bitF (decide (i.val ≤ i.val)) = 1
        simp [bitF]
    · intro i j hij
      have : j < i := hij
      show bitF (decide (i.val ≤ j.val)) = 0
      rw [decide_eq_false (by omega)]
      rfl
  · exact ⟨_, e⟩

/-- C70: `GenIndAffineTransform` returns two identity transforms made of four new matrices. -/
theorem C70_GenIndAffineTransform (hs : s.Ok) (n : Nat) :
    ∃ f g s', GenIndAffineTransform n s = .ok ((f, g), s') ∧
      Points s' f.linear_map (1 : Matrix (Fin n) (Fin n) (ZMod 2)) ∧
      Points s' f.vector_translation (0 : Matrix (Fin n) (Fin 1) (ZMod 2)) ∧
      Points s' g.linear_map (1 : Matrix (Fin n) (Fin n) (ZMod 2)) ∧
      Points s' g.vector_translation (0 : Matrix (Fin n) (Fin 1) (ZMod 2)) ∧
      (∀ q m, s.obj q = some m → s'.obj q = some m) ∧ s'.live = s.live + 4 ∧ s'.Ok := by
  have ho := Own.empty hs
  obtain ⟨l, s1, e1, x1, h1, -⟩ := (ind_new hs n).run ho
  obtain ⟨v, s2, e2, x2, h2, -⟩ := (zero_new s1 n 1).run x1.own
  obtain ⟨li, s3, e3, x3, h3, -⟩ := (ind_new x2.own.ok n).run x2.own
  obtain ⟨vi, s4, e4, x4, h4, -⟩ := (zero_new s3 n 1).run x3.own
  have x := ((x1.trans x2).trans x3).trans x4
  refine ⟨⟨l, v⟩, ⟨li, vi⟩, s4, ?_, (x4.holds (x3.holds (x2.holds h1))).1, (x4.holds (x3.holds h2)).1, (x4.holds h3).1, h4.1,
    ?_, ?_, x4.own.ok⟩
  · rw [GenIndAffineTransform, MM_bind e1, MM_bind e2, MM_bind e3, MM_bind e4]; rfl
  · intro q m hm
    exact (x.keep q m hm (Finset.notMem_empty _)).1
  · have := x.live
    simpa using this

/-! ## Freeing -/

/-- C70: `AffineTransformFree` frees the matrix and the vector, and nothing else, and leaves null pointers, so that a second
call does nothing. -/
theorem C70_AffineTransformFree (hs : s.Ok) {aff : AffineTransform} {n : Nat} {A : Matrix (Fin n) (Fin n) (ZMod 2)}
    {v : Matrix (Fin n) (Fin 1) (ZMod 2)} (hA : Points s aff.linear_map A) (hv : Points s aff.vector_translation v)
    (hne : aff.linear_map ≠ aff.vector_translation) :
    ∃ s', AffineTransformFree aff s = .ok (⟨0, 0⟩, s') ∧ s'.obj aff.linear_map = none ∧
      s'.obj aff.vector_translation = none ∧
      (∀ q, q ≠ aff.linear_map → q ≠ aff.vector_translation → s'.obj q = s.obj q) ∧ s'.live + 2 = s.live ∧
      AffineTransformFree ⟨0, 0⟩ s' = .ok (⟨0, 0⟩, s') := by
  obtain ⟨ma, ha, -⟩ := hA
  obtain ⟨mv, hv, -⟩ := hv
  have h1 := hs.setNone aff.linear_map
  have hv' : (setObj s aff.linear_map none).obj aff.vector_translation = some mv := by
    rw [setObj_ne _ _ hne.symm]; exact hv
  refine ⟨setObj (setObj s aff.linear_map none) aff.vector_translation none, ?_, ?_, setObj_self _ _ _, ?_, ?_, rfl⟩
  · rw [AffineTransformFree, MM_bind (free_run hs ha), MM_bind (free_run h1 hv')]; rfl
  · rw [setObj_ne _ _ hne]; exact setObj_self _ _ _
  · intro q h2 h3
    rw [setObj_ne _ _ h3, setObj_ne _ _ h2]
  · have := live_free hs ha
    have := live_free h1 hv'
    omega

example : exHeapA.live = 2 := by decide +kernel
example : valueOf ((do let f ← AffineTransformFree ⟨1, 2⟩; pure (f.linear_map, f.vector_translation) : MM (Nat × Nat)) exHeapA)
    = some (0, 0) := by decide +kernel

/-! ## Strings -/

theorem peek32_run {e : Endian} {x : BitVec 32} (t : List (BitVec 8)) :
    peek32 e (bytes32 e x ++ t) s = .ok (x, s) := by
  obtain ⟨b0, b1, b2, b3, eb, hb⟩ := word32_bytes32 e x
  rw [eb]
  show Except.ok (word32 e b0 b1 b2 b3, s) = _
  rw [hb]

theorem bytes32_length (e : Endian) (x : BitVec 32) : (bytes32 e x).length = 4 := by
  obtain ⟨b0, b1, b2, b3, eb, -⟩ := word32_bytes32 e x
  rw [eb]; rfl

/-- C70: on a machine with either byte order, importing what `ExportAffineToStr` wrote makes two new matrices that are equal
to those of the transform.  The first four bytes are the length. -/
theorem C70_roundTrip (hs : s.Ok) {aff : AffineTransform} {n k : Nat} {A : Matrix (Fin n) (Fin n) (ZMod 2)}
    {v : Matrix (Fin k) (Fin 1) (ZMod 2)} (hA : Points s aff.linear_map A) (hv : Points s aff.vector_translation v)
    (hn : 20 + n * n + k < 2 ^ 31) (e : Endian) :
    ∃ bytes, ExportAffineToStr e aff s = .ok (bytes, s) ∧ bytes.length = 20 + n * n + k ∧
      bytes.take 4 = bytes32 e (BitVec.ofNat 32 (20 + n * n + k)) ∧
      ∀ tail, ∃ f m m', ImportAffineFromStr e (bytes ++ tail) s = .ok (f, push (push s m) m') ∧
        f.linear_map = s.next ∧ f.vector_translation = s.next + 1 ∧ Is m A ∧ Is m' v := by
  have hn1 : n < 2 ^ 32 := by nlinarith
  have hk1 : k < 2 ^ 32 := by omega
  obtain ⟨ma, ha, hma⟩ := hA
  obtain ⟨mv, hv, hmv⟩ := hv
  have ea := export_run hs ha e
  have ev := export_run hs hv e
  have wa := bytes32_length e (BitVec.ofNat 32 ma.nrows)
  have wb := bytes32_length e (BitVec.ofNat 32 ma.ncols)
  have wc := bytes32_length e (BitVec.ofNat 32 mv.nrows)
  have wd := bytes32_length e (BitVec.ofNat 32 mv.ncols)
  have la : (bytes32 e (BitVec.ofNat 32 ma.nrows) ++ bytes32 e (BitVec.ofNat 32 ma.ncols) ++ digits ma ma.nrows).length
      = n * n + 8 := by
    rw [List.length_append, List.length_append, digits_length, wa, wb, hma.nrows, hma.ncols]; omega
  have lv : (bytes32 e (BitVec.ofNat 32 mv.nrows) ++ bytes32 e (BitVec.ofNat 32 mv.ncols) ++ digits mv mv.nrows).length
      = k + 8 := by
    rw [List.length_append, List.length_append, digits_length, wc, wd, hmv.nrows, hmv.ncols]; omega
  have pa : ∀ t, peek32 e (bytes32 e (BitVec.ofNat 32 ma.nrows) ++ bytes32 e (BitVec.ofNat 32 ma.ncols)
      ++ digits ma ma.nrows ++ t) s = .ok (BitVec.ofNat 32 ma.nrows, s) := by
    intro t; rw [List.append_assoc, List.append_assoc]; exact peek32_run _
  have pb : ∀ t, peek32 e ((bytes32 e (BitVec.ofNat 32 ma.nrows) ++ bytes32 e (BitVec.ofNat 32 ma.ncols)
      ++ digits ma ma.nrows ++ t).drop 4) s = .ok (BitVec.ofNat 32 ma.ncols, s) := by
    intro t
    rw [List.append_assoc, List.append_assoc, List.drop_append_of_le_length (by rw [wa]), List.drop_of_length_le (by rw [wa])]
    exact peek32_run _
  have pc : peek32 e (bytes32 e (BitVec.ofNat 32 mv.nrows) ++ bytes32 e (BitVec.ofNat 32 mv.ncols)
      ++ digits mv mv.nrows) s = .ok (BitVec.ofNat 32 mv.nrows, s) := by
    rw [List.append_assoc]; exact peek32_run _
  have pd : peek32 e ((bytes32 e (BitVec.ofNat 32 mv.nrows) ++ bytes32 e (BitVec.ofNat 32 mv.ncols)
      ++ digits mv mv.nrows).drop 4) s = .ok (BitVec.ofNat 32 mv.ncols, s) := by
    rw [List.append_assoc, List.drop_append_of_le_length (by rw [wc]), List.drop_of_length_le (by rw [wc])]
    exact peek32_run _
  have sza : (BitVec.ofNat 32 ma.nrows * BitVec.ofNat 32 ma.ncols).toNat = n * n := by
    rw [hma.nrows, hma.ncols, ← BitVec.ofNat_mul, BitVec.toNat_ofNat, Nat.mod_eq_of_lt (by omega)]
  have szb : (BitVec.ofNat 32 mv.nrows * BitVec.ofNat 32 mv.ncols).toNat = k := by
    rw [hmv.nrows, hmv.ncols, ← BitVec.ofNat_mul, BitVec.toNat_ofNat, Nat.mod_eq_of_lt (by omega), Nat.mul_one]
  generalize hba : bytes32 e (BitVec.ofNat 32 ma.nrows) ++ bytes32 e (BitVec.ofNat 32 ma.ncols) ++ digits ma ma.nrows = ba
    at ea la pa pb
  generalize hbv : bytes32 e (BitVec.ofNat 32 mv.nrows) ++ bytes32 e (BitVec.ofNat 32 mv.ncols) ++ digits mv mv.nrows = bv
    at ev lv pc pd
  have pa0 := pa []
  have pb0 := pb []
  rw [List.append_nil] at pa0 pb0
  refine ⟨bytes32 e (BitVec.ofNat 32 (20 + n * n + k)) ++ ba ++ bv, ?_, ?_, ?_, ?_⟩
  · rw [ExportAffineToStr, MM_bind ea, MM_bind ev, MM_bind pa0, MM_bind pb0, MM_bind pc, MM_bind pd]
    have c1 : copyBytes ba ((BitVec.ofNat 32 ma.nrows * BitVec.ofNat 32 ma.ncols).toNat + 8) s = .ok (ba, s) := by
      rw [sza, copyBytes, if_pos (by omega), List.take_of_length_le (by omega)]; rfl
    have c2 : copyBytes bv ((BitVec.ofNat 32 mv.nrows * BitVec.ofNat 32 mv.ncols).toNat + 8) s = .ok (bv, s) := by
      rw [szb, copyBytes, if_pos (by omega), List.take_of_length_le (by omega)]; rfl
    rw [MM_bind c1, MM_bind c2, sza, szb]
    rfl
  · rw [List.length_append, List.length_append, bytes32_length, la, lv]; omega
  · rw [List.append_assoc, List.take_append_of_le_length (by rw [bytes32_length]),
      List.take_of_length_le (by rw [bytes32_length])]
  · intro tail
    obtain ⟨by1, ex1, -, -, i1⟩ := C69_roundTrip hs ⟨ma, ha, hma⟩ hn1 hn1 e
    have i1' := i1 (bv ++ tail)
    rw [ea] at ex1
    cases ex1
    obtain ⟨m, im, hm⟩ := i1'
    have hv2 : (push s m).obj aff.vector_translation = some mv := push_old hs m hv
    obtain ⟨by2, ex2, -, -, i2⟩ := C69_roundTrip (hs.push m) ⟨mv, hv2, hmv⟩ hk1 (by decide) e
    have ev2 := export_run (hs.push m) hv2 e
    rw [hbv] at ev2
    rw [ev2] at ex2
    cases ex2
    obtain ⟨m', im', hm'⟩ := i2 tail
    have d4 : (bytes32 e (BitVec.ofNat 32 (20 + n * n + k)) ++ ba ++ bv ++ tail).drop 4 = ba ++ (bv ++ tail) := by
      rw [List.append_assoc, List.append_assoc, List.drop_append_of_le_length (by rw [bytes32_length]),
        List.drop_of_length_le (by rw [bytes32_length])]
      rfl
    have pas : peek32 e (ba ++ (bv ++ tail)) (push s m) = .ok (BitVec.ofNat 32 ma.nrows, push s m) := by
      rw [← hba, List.append_assoc, List.append_assoc]; exact peek32_run _
    have pbs : peek32 e ((ba ++ (bv ++ tail)).drop 4) (push s m) = .ok (BitVec.ofNat 32 ma.ncols, push s m) := by
      rw [← hba, List.append_assoc, List.append_assoc, List.drop_append_of_le_length (by rw [wa]),
        List.drop_of_length_le (by rw [wa])]
      exact peek32_run _
    refine ⟨⟨s.next, s.next + 1⟩, m, m', ?_, rfl, rfl, hm, hm'⟩
    rw [ImportAffineFromStr]
    simp only [d4]
    rw [MM_bind im, MM_bind pas, MM_bind pbs, sza]
    have d8 : (ba ++ (bv ++ tail)).drop (n * n + 8) = bv ++ tail := by
      rw [← la, List.drop_left]
    rw [d8, MM_bind im']
    rfl

example : (valueOf (ExportAffineToStr .little ⟨1, 2⟩ exHeapA)).map (fun l => (l.take 12, l.length)) =
    some ([92, 0, 0, 0, 8, 0, 0, 0, 8, 0, 0, 0], 92) := by decide +kernel

end WB
