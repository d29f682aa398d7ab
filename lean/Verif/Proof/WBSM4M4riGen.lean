import Mathlib.Data.Matrix.Block
import Verif.Model.WBSM4M4ri
import Verif.Proof.AffineM4ri
import Verif.Proof.WBSM4

/-!
# Generation of the encodings of the M4RI based SM4 demo (helper lemmas)
-/
namespace WB.m4ri

variable {lib : M4ri} {s s' s'' : Heap} {T T' : Finset Nat} {k : Nat}

/-! ## Matrices and machine words -/

/-- The transform `a` denotes the affine function `f`. -/
def A32 (s : Heap) (T : Finset Nat) (a : AffineTransform) (f : Aff32) : Prop :=
  IsAff s T a (mat32 f.Mat) (colVec 32 f.Vec)

/-- The transform `a` denotes the affine function `f`. -/
def A8 (s : Heap) (T : Finset Nat) (a : AffineTransform) (f : Aff8) : Prop :=
  IsAff s T a (mat8 f.Mat) (colVec 8 f.Vec)

theorem Ext.a32 (h : Ext k s T s' T') {a : AffineTransform} {f : Aff32} (ha : A32 s T a f) : A32 s' T' a f := h.isAff ha
theorem Ext.a8 (h : Ext k s T s' T') {a : AffineTransform} {f : Aff8} (ha : A8 s T a f) : A8 s' T' a f := h.isAff ha

theorem mat_ofFn {n : Nat} (A : Matrix (Fin n) (Fin n) (ZMod 2)) :
    matOf n (bitS n) (Vector.ofFn fun i => unvec (A i)) = A := by
  funext i j
  have h := congrFun (vec_unvec (A i)) j
  show bitF (bitS n (Vector.ofFn fun i => unvec (A i))[i.val] j) = A i j
  rw [Vector.getElem_ofFn]
  exact h

theorem col_unvec {n : Nat} (v : Matrix (Fin n) (Fin 1) (ZMod 2)) : colVec n (unvec fun i => v i 0) = v := by
  funext i j
  obtain rfl : j = 0 := Subsingleton.elim _ _
  exact congrFun (vec_unvec fun i => v i 0) i

theorem exists32 (A : Matrix (Fin 32) (Fin 32) (ZMod 2)) (v : Matrix (Fin 32) (Fin 1) (ZMod 2)) :
    ∃ f : Aff32, mat32 f.Mat = A ∧ colVec 32 f.Vec = v := ⟨⟨_, _⟩, mat_ofFn A, col_unvec v⟩

theorem exists8 (A : Matrix (Fin 8) (Fin 8) (ZMod 2)) (v : Matrix (Fin 8) (Fin 1) (ZMod 2)) :
    ∃ f : Aff8, mat8 f.Mat = A ∧ colVec 8 f.Vec = v := ⟨⟨_, _⟩, mat_ofFn A, col_unvec v⟩

theorem colVec_inj {n : Nat} {x y : BitVec n} (h : colVec n x = colVec n y) : x = y :=
  vecS_inj (funext fun i => congrFun (congrFun h i) 0)

theorem mul_colVec {n : Nat} (A : Vector (BitVec n) n) (x : BitVec n) :
    matOf n (bitS n) A * colVec n x = colVec n (lin A x) := by
  funext i j
  obtain rfl : j = 0 := Subsingleton.elim _ _
  exact (congrFun (vec_lin A x) i).symm

theorem colVec_add {n : Nat} (x y : BitVec n) : colVec n x + colVec n y = colVec n (x ^^^ y) := by
  funext i j
  obtain rfl : j = 0 := Subsingleton.elim _ _
  exact (congrFun (vec_add x y) i).symm

/-- A transform and its inverse. -/
theorem genAff32_run (hl : lib.Ok) (fuel : Nat) (ho : Own s T) :
    RunD (¬ Lucky lib 32 fuel) (GenRandomAffineTransform lib fuel 32) s fun r s' => Ext 4 s T s' T ∧
      ∃ f g, Pair32 f g ∧ A32 s' T r.1 f ∧ A32 s' T r.2 g := by
  refine (genAffine_run hl (by decide) fuel ho).mono ?_
  rintro r s' ⟨h1, A, v, hu, ha, hb⟩
  obtain ⟨f, hf, hfv⟩ := exists32 A v
  obtain ⟨g, hg, hgv⟩ := exists32 A⁻¹ (A⁻¹ * v)
  refine ⟨h1, f, g, pair32_of ?_ ?_, ?_, ?_⟩
  · rw [hf, hg, Matrix.mul_nonsing_inv _ ((Matrix.isUnit_iff_isUnit_det _).1 hu)]
  · rw [← hfv] at hgv
    rw [hg]
    exact funext fun i => congrFun (congrFun hgv i) 0
  · unfold A32; rw [hf, hfv]; exact ha
  · unfold A32; rw [hg, hgv]; exact hb

/-- A transform and its inverse. -/
theorem genAff8_run (hl : lib.Ok) (fuel : Nat) (ho : Own s T) :
    RunD (¬ Lucky lib 8 fuel) (GenRandomAffineTransform lib fuel 8) s fun r s' => Ext 4 s T s' T ∧
      ∃ f g, Pair8 f g ∧ IsUnit (mat8 f.Mat) ∧ A8 s' T r.1 f ∧ A8 s' T r.2 g := by
  refine (genAffine_run hl (by decide) fuel ho).mono ?_
  rintro r s' ⟨h1, A, v, hu, ha, hb⟩
  obtain ⟨f, hf, hfv⟩ := exists8 A v
  obtain ⟨g, hg, hgv⟩ := exists8 A⁻¹ (A⁻¹ * v)
  refine ⟨h1, f, g, pair8_of ?_ ?_, ?_, ?_, ?_⟩
  · rw [hf, hg, Matrix.mul_nonsing_inv _ ((Matrix.isUnit_iff_isUnit_det _).1 hu)]
  · rw [← hfv] at hgv
    rw [hg]
    exact funext fun i => congrFun (congrFun hgv i) 0
  · rw [hf]; exact hu
  · unfold A8; rw [hf, hfv]; exact ha
  · unfold A8; rw [hg, hgv]; exact hb

/-! ## Matrices on the diagonal -/

theorem diagMat_eq {n₁ n₂ : Nat} (A : Matrix (Fin n₁) (Fin n₁) (ZMod 2)) (B : Matrix (Fin n₂) (Fin n₂) (ZMod 2)) :
    diagMat A B = Matrix.reindex finSumFinEquiv finSumFinEquiv (Matrix.fromBlocks A 0 0 B) := by
  ext i j
  refine Fin.addCases (fun i => ?_) (fun i => ?_) i <;> refine Fin.addCases (fun j => ?_) (fun j => ?_) j <;>
    simp [diagMat]

theorem diagMat_unit {n₁ n₂ : Nat} {A : Matrix (Fin n₁) (Fin n₁) (ZMod 2)} {B : Matrix (Fin n₂) (Fin n₂) (ZMod 2)}
    (hA : IsUnit A) (hB : IsUnit B) : IsUnit (diagMat A B) := by
  rw [Matrix.isUnit_iff_isUnit_det] at *
  rw [diagMat_eq, Matrix.det_reindex_self, Matrix.det_fromBlocks_zero₂₁]
  exact hA.mul hB

theorem diagMat_apply {n₁ n₂ : Nat} (A : Matrix (Fin n₁) (Fin n₁) (ZMod 2)) (B : Matrix (Fin n₂) (Fin n₂) (ZMod 2))
    (i j : Fin (n₁ + n₂)) :
    diagMat A B i j = if hi : i.val < n₁ then (if hj : j.val < n₁ then A ⟨i, hi⟩ ⟨j, hj⟩ else 0)
      else if hj : j.val < n₁ then 0 else B ⟨i - n₁, by omega⟩ ⟨j - n₁, by omega⟩ := by
  refine Fin.addCases (fun i => ?_) (fun i => ?_) i <;> refine Fin.addCases (fun j => ?_) (fun j => ?_) j <;>
    simp [diagMat]

theorem blockDiag_diagMat (A B C D : Matrix (Fin 8) (Fin 8) (ZMod 2)) :
    (diagMat (diagMat (diagMat A B) C) D : Matrix (Fin 32) (Fin 32) (ZMod 2)) =
      blockDiag (k := 4) (a := 8) ![A, B, C, D] := by
  funext i j
  have hi := i.2
  have hj := j.2
  have e1 : ∀ (r : Fin 32) (q : Nat) (hq : q < 4), r.val / 8 = q → (Fin.divNat (m := 4) (n := 8) r : Fin 4) = ⟨q, hq⟩ :=
    fun r q hq h => Fin.ext h
  have e2 : ∀ (r : Fin 32) (q : Nat) (hq : q < 8), r.val % 8 = q → (Fin.modNat (m := 4) (n := 8) r : Fin 8) = ⟨q, hq⟩ :=
    fun r q hq h => Fin.ext h
  have hne : ∀ (a b : Nat) (ha : a < 4) (hb : b < 4), a ≠ b → (⟨a, ha⟩ : Fin 4) ≠ ⟨b, hb⟩ :=
    fun a b ha hb h h2 => h (Fin.mk.inj_iff.1 h2)
  simp only [blockDiag]
  refine (diagMat_apply (n₁ := 8 + 8 + 8) (n₂ := 8) _ _ i j).trans ?_
  have hi4 : i.val / 8 < 4 := by omega
  have hj4 : j.val / 8 < 4 := by omega
  rw [e1 i _ hi4 rfl, e1 j _ hj4 rfl, e2 i _ (by omega) rfl, e2 j _ (by omega) rfl]
  by_cases hb : i.val / 8 = j.val / 8
  · rw [if_pos (by rw [Fin.mk.injEq]; exact hb)]
    obtain h | h | h | h : i.val / 8 = 0 ∨ i.val / 8 = 1 ∨ i.val / 8 = 2 ∨ i.val / 8 = 3 := by omega
    · rw [dif_pos (by omega), dif_pos (by omega), diagMat_apply, dif_pos (show i.val < 16 by omega),
        dif_pos (show j.val < 16 by omega), diagMat_apply,
        dif_pos (show i.val < 8 by omega), dif_pos (show j.val < 8 by omega)]
      simp only [h]
      show A _ _ = A _ _
      congr 1 <;> (apply Fin.ext; show _ = _ % 8; simp only; omega)
    · rw [dif_pos (by omega), dif_pos (by omega), diagMat_apply, dif_pos (show i.val < 16 by omega),
        dif_pos (show j.val < 16 by omega), diagMat_apply,
        dif_neg (by simp only; omega), dif_neg (by simp only; omega)]
      simp only [h]
      show B _ _ = B _ _
      congr 1 <;> (apply Fin.ext; show _ = _ % 8; simp only; omega)
    · rw [dif_pos (by omega), dif_pos (by omega), diagMat_apply, dif_neg (by simp only; omega),
        dif_neg (by simp only; omega)]
      simp only [h]
      show C _ _ = C _ _
      congr 1 <;> (apply Fin.ext; show _ = _ % 8; simp only; omega)
    · rw [dif_neg (by omega), dif_neg (by omega)]
      simp only [h]
      show D _ _ = D _ _
      congr 1 <;> (apply Fin.ext; show _ = _ % 8; simp only; omega)
  · rw [if_neg (by rw [Fin.mk.injEq]; exact hb)]
    by_cases h3 : i.val < 24
    · by_cases k3 : j.val < 24
      · rw [dif_pos h3, dif_pos k3, diagMat_apply]
        by_cases h2 : i.val < 16
        · by_cases k2 : j.val < 16
          · rw [dif_pos h2, dif_pos k2, diagMat_apply]
            by_cases h1 : i.val < 8
            · rw [dif_pos h1, dif_neg (by simp only; omega)]
            · rw [dif_neg h1, dif_pos (by simp only; omega)]
          · rw [dif_pos h2, dif_neg k2]
        · rw [dif_neg h2, dif_pos (by simp only; omega)]
      · rw [dif_pos h3, dif_neg k3]
    · rw [dif_neg h3, dif_pos (by omega)]

/-! ## New matrices that are written element by element -/

theorem newLoop (hs : s.Ok) {r c : Nat} {F : Nat → Nat → Bool} {x : Nat → MM Unit}
    (h : Run (x s.next) (push s ⟨r, c, fun _ _ => false⟩) fun _ s' =>
      Wrote (push s ⟨r, c, fun _ _ => false⟩) s.next ⟨r, c, fun _ _ => false⟩ F s') :
    NewMat (do let p ← GenMatGf2 r c; x p; pure p : MM Nat) s (bitMat r c F) := by
  obtain ⟨_, s', e, hw⟩ := h
  obtain ⟨m', rfl, hm'⟩ := hw.is rfl rfl
  refine ⟨m', ?_, hm'⟩
  have e1 : GenMatGf2 r c s = .ok (s.next, push s ⟨r, c, fun _ _ => false⟩) := rfl
  rw [MM_bind e1, MM_bind e, setObj_push_some]
  rfl

/-- A new temporary. -/
theorem NewMat.tmp {x : MM Nat} {r c : Nat} {A : Matrix (Fin r) (Fin c) (ZMod 2)} (h : NewMat x s A) (ho : Own s T) :
    Run x s fun p s' => Ext 0 s T s' (insert p T) ∧ Points s' p A ∧ p ∉ T ∧ Frame 0 s s' := by
  obtain ⟨m, e, hm⟩ := h
  exact Run.of_eq e ⟨Ext.pushTmp ho m, Points.of_push hm, ho.next, fun q a _ ha => push_old ho.ok m ha⟩

namespace sm4
open WB.sm4 WB.wbsm4 SM4

theorem concatE_new (hs : s.Ok) {e : Vector (Vector AffineTransform 2) 5} {f : Nat → Aff8}
    (he : ∀ d, d < 4 → Points s (e[d]!)[0]!.vector_translation (colVec 8 (f d).Vec)) :
    ∃ V : BitVec 32, vec32 V = concatV (k := 4) (a := 8) ![vec8 (f 0).Vec, vec8 (f 1).Vec, vec8 (f 2).Vec, vec8 (f 3).Vec] ∧
      NewMat (concatE e) s (colVec 32 V) := by
  refine ⟨unvec (concatV (k := 4) (a := 8) ![vec8 (f 0).Vec, vec8 (f 1).Vec, vec8 (f 2).Vec, vec8 (f 3).Vec]), vec_unvec _, ?_⟩
  have hb : ∀ d, d < 4 → ∃ m, s.obj (e[d]!)[0]!.vector_translation = some m ∧ Is m (colVec 8 (f d).Vec) := he
  have hcol : ∀ j, j < 32 → ∃ m, s.obj (e[j / 8]!)[0]!.vector_translation = some m ∧
      m.bit (j % 8) 0 = (f (j / 8)).Vec.getLsbD (8 - 1 - j % 8) ∧ j % 8 < m.nrows ∧ 0 < m.ncols := by
    intro j hj
    obtain ⟨m, hm, hI⟩ := hb (j / 8) (by omega)
    refine ⟨m, hm, ?_, by rw [hI.nrows]; omega, by rw [hI.ncols]; omega⟩
    exact m4ri.bitF_inj (hI.bit ⟨j % 8, by omega⟩ 0)
  have hw : Run (WB.forUp 0 32 () fun j _ => do
      MatGf2Set s.next j 0 (if ← MatGf2Get (← liftC (rd2 e (j / 8) 0)).vector_translation (j % 8) 0 then 1 else 0))
      (push s ⟨32, 1, fun _ _ => false⟩) fun _ s' => Wrote (push s ⟨32, 1, fun _ _ => false⟩) s.next ⟨32, 1, fun _ _ => false⟩
        (fun j _ => (f (j / 8)).Vec.getLsbD (8 - 1 - j % 8)) s' := by
    have hp := push_self s ⟨32, 1, fun _ _ => false⟩
    have hok := hs.push ⟨32, 1, fun _ _ => false⟩
    refine Run.forUp (fun j _ s' => Wrote (push s ⟨32, 1, fun _ _ => false⟩) s.next ⟨32, 1, fun _ _ => false⟩
        (fun r _ => if r < j then (f (r / 8)).Vec.getLsbD (8 - 1 - r % 8) else false) s') (Nat.zero_le _)
      ((Wrote.refl hp).congr (by intro r c _ _; rw [if_neg (by omega)])) ?_ ?_
    · intro j _ s' _ hj hw
      obtain ⟨m, hm, hbit, h1, h2⟩ := hcol j hj
      have hm' := hw.old (by have := hs.lt hm; omega) (push_old hs ⟨32, 1, fun _ _ => false⟩ hm)
      refine Run.step (liftC_run s' (rd2_get e (show j / 8 < 5 by omega) (by omega))) ?_
      refine Run.step (get_run (hw.ok hok hp) hm' h1 h2) ?_
      refine (hw.set hok hp _ hj (show (0:Nat) < 1 by omega)).mono ?_
      intro _ s3 h3
      refine h3.congr ?_
      intro r c hr hc
      have hc' : c < 1 := hc
      by_cases e : r = j
      · rw [if_pos ⟨e, by omega⟩, setBit_bool, hbit, if_pos (by omega), e]
      · rw [if_neg (fun h => e h.1)]
        by_cases h : r < j
        · rw [if_pos h, if_pos (by omega)]
        · rw [if_neg h, if_neg (by omega)]
    · intro _ s' hw
      refine hw.congr ?_
      intro r c hr _
      exact if_pos hr
  have := newLoop (x := fun p => WB.forUp 0 32 () fun j _ => do
      MatGf2Set p j 0 (if ← MatGf2Get (← liftC (rd2 e (j / 8) 0)).vector_translation (j % 8) 0 then 1 else 0)) hs hw
  have e2 : bitMat 32 1 (fun j _ => (f (j / 8)).Vec.getLsbD (8 - 1 - j % 8)) = colVec 32 (unvec (concatV (k := 4) (a := 8)
      ![vec8 (f 0).Vec, vec8 (f 1).Vec, vec8 (f 2).Vec, vec8 (f 3).Vec])) := by
    funext i j
    obtain rfl : j = 0 := Subsingleton.elim _ _
    have hv := congrFun (vec_unvec (concatV (k := 4) (a := 8)
      ![vec8 (f 0).Vec, vec8 (f 1).Vec, vec8 (f 2).Vec, vec8 (f 3).Vec])) i
    refine Eq.trans ?_ hv.symm
    show bitF ((f (i.val / 8)).Vec.getLsbD (8 - 1 - i.val % 8)) = (![vec8 (f 0).Vec, vec8 (f 1).Vec, vec8 (f 2).Vec, vec8 (f 3).Vec] : Fin 4 → Fin 8 → ZMod 2) _ _
    have hi := i.2
    have e1 : ∀ (q : Nat) (hq : q < 4), i.val / 8 = q → (Fin.divNat (m := 4) (n := 8) i : Fin 4) = ⟨q, hq⟩ :=
      fun q hq h => Fin.ext h
    obtain h | h | h | h : i.val / 8 = 0 ∨ i.val / 8 = 1 ∨ i.val / 8 = 2 ∨ i.val / 8 = 3 := by omega
    · rw [e1 0 (by decide) h, h]; rfl
    · rw [e1 1 (by decide) h, h]; rfl
    · rw [e1 2 (by decide) h, h]; rfl
    · rw [e1 3 (by decide) h, h]; rfl
  rw [e2] at this
  exact this

theorem combineE_run (hl : lib.Ok) (ho : Own s T) {e : Vector (Vector AffineTransform 2) 5} {f : Nat → Aff8}
    (he : ∀ d, d < 4 → A8 s T (e[d]!)[0]! (f d) ∧ IsUnit (mat8 (f d).Mat)) :
    Run (combineE lib e) s fun r s' => Ext 4 s T s' (insert r.2.2.2 (insert r.2.2.1 T)) ∧ r.2.2.1 ∉ T ∧
      r.2.2.2 ∉ insert r.2.2.1 T ∧ ∃ F : Aff32, A32 s' (insert r.2.2.2 (insert r.2.2.1 T)) r.2.1 F ∧
        ∀ y d, d < 4 → ap8 (f d) (byte (ap32 F y) d) = byte y d := by
  rw [combineE]
  refine Run.step (liftC_run s (rd2_get e (show 0 < 5 by omega) (show 0 < 2 by omega))) ?_
  refine Run.step (liftC_run s (rd2_get e (show 1 < 5 by omega) (show 0 < 2 by omega))) ?_
  refine Run.bind ((diag_new ho.ok (he 0 (by omega)).1.lin.1 (he 1 (by omega)).1.lin.1).tmp ho) ?_
  rintro t s1 ⟨x1, pt, nt, -⟩
  refine Run.step (liftC_run s1 (rd2_get e (show 2 < 5 by omega) (show 0 < 2 by omega))) ?_
  refine Run.bind ((diag_new x1.own.ok pt (x1.a8 (he 2 (by omega)).1).lin.1).tmp x1.own) ?_
  rintro S s2 ⟨x2, pS, nS, -⟩
  have x02 := x1.trans x2
  refine Run.step (liftC_run s2 (rd2_get e (show 3 < 5 by omega) (show 0 < 2 by omega))) ?_
  have hd : GenMatGf2Diag S (e[3]!)[0]!.linear_map = MatGf2Diag S (e[3]!)[0]!.linear_map 0 := rfl
  rw [hd]
  refine Run.bind ((diag_new x2.own.ok pS (x02.a8 (he 3 (by omega)).1).lin.1).run x2.own) ?_
  rintro l0 s3 ⟨x3, pl0, -⟩
  have hu := diagMat_unit (diagMat_unit (diagMat_unit (he 0 (by omega)).2 (he 1 (by omega)).2) (he 2 (by omega)).2)
    (he 3 (by omega)).2
  refine Run.bind ((inv_new hl x3.own.ok pl0.1 hu).run x3.own) ?_
  rintro l1 s4 ⟨x4, pl1, -⟩
  have x04 := (x02.trans x3).trans x4
  obtain ⟨V, hV, hnew⟩ := concatE_new (e := e) (f := f) x4.own.ok (fun d hd => (x04.a8 (he d hd).1).vec.1)
  refine Run.bind (hnew.run x4.own) ?_
  rintro v0 s5 ⟨x5, pv0, -⟩
  have hm := mul_to hl x5.own.ok (x5.holds pl1).1 pv0.1 (.inl rfl)
  have hm' : NewMat (MatGf2Mul lib l1 v0 0) s5
      ((diagMat (diagMat (diagMat (mat8 (f 0).Mat) (mat8 (f 1).Mat)) (mat8 (f 2).Mat)) (mat8 (f 3).Mat))⁻¹ * colVec 32 V) := by
    obtain ⟨m, e1, hm⟩ := hm
    refine ⟨m, ?_, hm⟩
    rw [e1, setObj_eq_self (x5.own.ok.push m).null]
  refine Run.bind (hm'.run x5.own) ?_
  rintro v1 s6 ⟨x6, pv1, -⟩
  have hl1 := x6.holds (x5.holds pl1)
  rw [blockDiag_diagMat] at hu
  have hbd := blockDiag_diagMat (mat8 (f 0).Mat) (mat8 (f 1).Mat) (mat8 (f 2).Mat) (mat8 (f 3).Mat)
  obtain ⟨F0, hF0, -⟩ := exists32 (blockDiag (k := 4) (a := 8)
    ![mat8 (f 0).Mat, mat8 (f 1).Mat, mat8 (f 2).Mat, mat8 (f 3).Mat]) (colVec 32 V)
  obtain ⟨F, hF, hFv⟩ := exists32 (blockDiag (k := 4) (a := 8)
    ![mat8 (f 0).Mat, mat8 (f 1).Mat, mat8 (f 2).Mat, mat8 (f 3).Mat])⁻¹ ((blockDiag (k := 4) (a := 8)
    ![mat8 (f 0).Mat, mat8 (f 1).Mat, mat8 (f 2).Mat, mat8 (f 3).Mat])⁻¹ * colVec 32 V)
  refine Run.pure ⟨(((x02.trans x3).trans x4).trans x5).trans x6, nt, nS, F, ?_, ?_⟩
  · refine ⟨?_, ?_⟩
    · rw [hF, ← hbd]; exact hl1
    · rw [hFv, ← hbd]; exact pv1
  · have hp : Pair32 (⟨F0.Mat, V⟩ : Aff32) F := by
      refine pair32_of ?_ ?_
      · show mat32 F0.Mat * _ = 1
        rw [hF0, hF, Matrix.mul_nonsing_inv _ ((Matrix.isUnit_iff_isUnit_det _).1 hu)]
      · rw [hF]
        exact funext fun i => congrFun (congrFun hFv i) 0
    have hc := com_of (f0 := f 0) (f1 := f 1) (f2 := f 2) (f3 := f 3) (F := ⟨F0.Mat, V⟩) hF0 hV
    intro y d hd
    have h2 := (hp y).2
    obtain ⟨c0, c1, c2, c3⟩ := hc (ap32 F y)
    rw [h2] at c0 c1 c2 c3
    obtain rfl | rfl | rfl | rfl : d = 0 ∨ d = 1 ∨ d = 2 ∨ d = 3 := by omega
    · exact c0.symm
    · exact c1.symm
    · exact c2.symm
    · exact c3.symm

/-- The encodings of one round. -/
structure Row where
  p : Nat → Aff32
  e : Nat → Nat → Aff8
  ec : Aff32
  q : Nat → Aff32

/-- The transforms of round `i` denote the encodings `R`. -/
structure RowRel (s : Heap) (T : Finset Nat) (g : Globals) (i : Nat) (R : Row) : Prop where
  P : ∀ k, k < 2 → A32 s T (g.P[i]!)[k]! (R.p k)
  E : ∀ d, d < 4 → A8 s T ((g.E[i]!)[d]!)[0]! (R.e d 0)
  EC : A32 s T ((g.E[i]!)[4]!)[1]! R.ec
  Q : ∀ k, k < 2 → A32 s T (g.Q[i]!)[k]! (R.q k)
  ok : wbsm4.RowOk R.p R.e R.ec R.q

theorem Ext.row (h : Ext k s T s' T') {g : Globals} {i : Nat} {R : Row} (hr : RowRel s T g i R) : RowRel s' T' g i R :=
  ⟨fun k hk => h.a32 (hr.P k hk), fun d hd => h.a8 (hr.E d hd), h.a32 hr.EC, fun k hk => h.a32 (hr.Q k hk), hr.ok⟩

/-- Row `x` of both is the same. -/
structure SameRow (g g' : Globals) (x : Nat) : Prop where
  P : ∀ k, k < 2 → (g'.P[x]!)[k]! = (g.P[x]!)[k]!
  E : ∀ d k, d < 5 → k < 2 → ((g'.E[x]!)[d]!)[k]! = ((g.E[x]!)[d]!)[k]!
  Q : ∀ k, k < 2 → (g'.Q[x]!)[k]! = (g.Q[x]!)[k]!

theorem RowRel.congr {g g' : Globals} {i : Nat} {R : Row} (hr : RowRel s T g i R) (h : SameRow g g' i) :
    RowRel s T g' i R where
  P k hk := by rw [h.P k hk]; exact hr.P k hk
  E d hd := by rw [h.E d 0 (by omega) (by omega)]; exact hr.E d hd
  EC := by rw [h.E 4 1 (by omega) (by omega)]; exact hr.EC
  Q k hk := by rw [h.Q k hk]; exact hr.Q k hk
  ok := hr.ok

/-- Within any `fuel` successive draws there is an invertible matrix, for both sizes. -/
def Lucky2 (lib : M4ri) (fuel : Nat) : Prop := Lucky lib 8 fuel ∧ Lucky lib 32 fuel

theorem erase_two {t S : Nat} (h1 : t ∉ T) (h2 : S ∉ insert t T) : ((insert S (insert t T)).erase t).erase S = T := by
  ext q
  simp only [Finset.mem_erase, Finset.mem_insert]
  constructor
  · rintro ⟨a, b, c | c | c⟩
    · exact absurd c a
    · exact absurd c b
    · exact c
  · intro hq
    refine ⟨?_, ?_, .inr (.inr hq)⟩
    · rintro rfl; exact h2 (Finset.mem_insert_of_mem hq)
    · rintro rfl; exact h1 hq

theorem affineRow_run (hl : lib.Ok) (fuel : Nat) (ho : Own s T) (g : Globals) {i : Nat} (hi : i < 36) :
    RunD (¬ Lucky2 lib fuel) (affineRow lib fuel i g) s fun g' s' => Ext 28 s T s' T ∧ (∃ R, RowRel s' T g' i R) ∧
      (∀ x, x < 36 → x ≠ i → SameRow g g' x) ∧ g'.skbox_enc = g.skbox_enc := by
  rw [affineRow]
  refine RunD.bind ((genAff32_run hl fuel ho).weaken (fun h h2 => h h2.2)) ?_
  rintro ⟨p0, p1⟩ s1 ⟨x1, f0, f1, hp, hp0, hp1⟩
  obtain ⟨P1, hP1, gP1⟩ := wr2_get g.P (i := i) (k := 0) hi (by omega) p0
  obtain ⟨P2, hP2, gP2⟩ := wr2_get P1 (i := i) (k := 1) hi (by omega) p1
  refine RunD.step (liftC_run s1 hP1) ?_
  refine RunD.step (liftC_run s1 hP2) ?_
  refine RunD.bind (P := fun E s' => Ext 16 s1 T s' T ∧ (∀ x d k, x < 36 → d < 5 → k < 2 → x ≠ i →
      ((E[x]!)[d]!)[k]! = ((g.E[x]!)[d]!)[k]!) ∧ ∃ e : Nat → Nat → Aff8, ∀ d, d < 4 → Pair8 (e d 0) (e d 1) ∧
        A8 s' T ((E[i]!)[d]!)[0]! (e d 0) ∧ IsUnit (mat8 (e d 0).Mat)) ?_ ?_
  · refine RunD.forUp (fun j E s' => Ext (4 * j) s1 T s' T ∧ (∀ x d k, x < 36 → d < 5 → k < 2 → x ≠ i →
      ((E[x]!)[d]!)[k]! = ((g.E[x]!)[d]!)[k]!) ∧ ∃ e : Nat → Nat → Aff8, ∀ d, d < j → Pair8 (e d 0) (e d 1) ∧
        A8 s' T ((E[i]!)[d]!)[0]! (e d 0) ∧ IsUnit (mat8 (e d 0).Mat)) (by omega)
      ⟨Ext.refl x1.own, fun _ _ _ _ _ _ _ => rfl, fun _ _ => default, fun d hd => by omega⟩ ?_ (fun E _ h => h)
    rintro j E s' - hj ⟨xE, hE, e, he⟩
    refine RunD.bind ((genAff8_run hl fuel xE.own).weaken (fun h h2 => h h2.1)) ?_
    rintro ⟨e0, e1⟩ s2 ⟨x2, a0, a1, ha, hu, ha0, ha1⟩
    obtain ⟨E1, hE1, gE1⟩ := wr3_get E (i := i) (k := j) (t := 0) hi (by omega) (by omega) e0
    obtain ⟨E2, hE2, gE2⟩ := wr3_get E1 (i := i) (k := j) (t := 1) hi (by omega) (by omega) e1
    refine RunD.step (liftC_run s2 hE1) ?_
    refine .inr (Run.of_eq (liftC_run s2 hE2) ⟨xE.trans x2, ?_, fun d k => if d = j then (if k = 0 then a0 else a1)
      else e d k, ?_⟩)
    · intro x d k hx hd hk hne
      rw [gE2 x d k hx hd hk, if_neg (by omega), gE1 x d k hx hd hk, if_neg (by omega)]
      exact hE x d k hx hd hk hne
    · intro d hd
      rw [gE2 i d 0 hi (by omega) (by omega), if_neg (by omega), gE1 i d 0 hi (by omega) (by omega)]
      by_cases c : d = j
      · rw [if_pos (show i = i ∧ d = j ∧ 0 = 0 from ⟨rfl, c, rfl⟩)]
        simp only [if_pos c]
        exact ⟨ha, ha0, hu⟩
      · rw [if_neg (show ¬ (i = i ∧ d = j ∧ 0 = 0) from fun h => c h.2.1)]
        simp only [if_neg c]
        obtain ⟨h1, h2, h3⟩ := he d (by omega)
        exact ⟨h1, x2.a8 h2, h3⟩
  rintro E s2 ⟨x2, hE, e, he⟩
  refine RunD.step (liftC_run s2 (rd_get E hi)) ?_
  refine RunD.bind (.inr (combineE_run hl x2.own (f := fun d => e d 0) (fun d hd => (he d hd).2))) ?_
  rintro ⟨e0, e1, t, S⟩ s3 ⟨x3, nt, nS, F, hF, hFe⟩
  simp only at x3 nt nS hF
  obtain ⟨E1, hE1, gE1⟩ := wr3_get E (i := i) (k := 4) (t := 0) hi (by omega) (by omega) e0
  obtain ⟨E2, hE2, gE2⟩ := wr3_get E1 (i := i) (k := 4) (t := 1) hi (by omega) (by omega) e1
  refine RunD.step (liftC_run s3 hE1) ?_
  refine RunD.step (liftC_run s3 hE2) ?_
  refine RunD.bind ((genAff32_run hl fuel x3.own).weaken (fun h h2 => h h2.2)) ?_
  rintro ⟨q0, q1⟩ s4 ⟨x4, b0, b1, hq, hq0, hq1⟩
  obtain ⟨Q1, hQ1, gQ1⟩ := wr2_get g.Q (i := i) (k := 0) hi (by omega) q0
  obtain ⟨Q2, hQ2, gQ2⟩ := wr2_get Q1 (i := i) (k := 1) hi (by omega) q1
  refine RunD.step (liftC_run s4 hQ1) ?_
  refine RunD.step (liftC_run s4 hQ2) ?_
  have mt : t ∈ insert S (insert t T) := by simp
  have mS : S ∈ (insert S (insert t T)).erase t := by
    rw [Finset.mem_erase]
    exact ⟨by rintro rfl; exact nS (Finset.mem_insert_self _ _), Finset.mem_insert_self _ _⟩
  refine RunD.step (free_any x4.own.ok (x4.own.canFree (.inr mt))) ?_
  have x5 := Ext.free x4.own (.inr mt)
  refine RunD.step (free_any x5.own.ok (x5.own.canFree (.inr mS))) ?_
  have x6 := Ext.free x5.own (.inr mS)
  have x46 := x5.trans x6
  have x36 := x4.trans x46
  have x26 := x3.trans x36
  have x16 := x2.trans x26
  have x06 := x1.trans x16
  rw [erase_two nt nS] at x46 x36 x26 x16 x06
  refine .inr (Run.pure ⟨x06.cast rfl, ⟨⟨fun k => if k = 0 then f0 else f1, e, F, fun k => if k = 0 then b0 else b1⟩, ?_⟩,
    ?_, rfl⟩)
  · constructor
    · intro k hk
      show A32 _ _ (P2[i]!)[k]! _
      rw [gP2 i k hi hk, gP1 i k hi hk]
      obtain rfl | rfl : k = 0 ∨ k = 1 := by omega
      · rw [if_neg (by omega), if_pos (by omega)]; exact x16.a32 hp0
      · rw [if_pos (by omega)]; exact x16.a32 hp1
    · intro d hd
      show A8 _ _ ((E2[i]!)[d]!)[0]! _
      rw [gE2 i d 0 hi (by omega) (by omega), if_neg (by omega), gE1 i d 0 hi (by omega) (by omega), if_neg (by omega)]
      exact x26.a8 (he d hd).2.1
    · show A32 _ _ ((E2[i]!)[4]!)[1]! _
      rw [gE2 i 4 1 hi (by omega) (by omega), if_pos ⟨rfl, rfl, rfl⟩]
      exact x36.a32 hF
    · intro k hk
      show A32 _ _ (Q2[i]!)[k]! _
      rw [gQ2 i k hi hk, gQ1 i k hi hk]
      obtain rfl | rfl : k = 0 ∨ k = 1 := by omega
      · rw [if_neg (by omega), if_pos (by omega)]; exact x46.a32 hq0
      · rw [if_pos (by omega)]; exact x46.a32 hq1
    · refine ⟨hp, fun d hd => (he d hd).1, ?_, hq⟩
      intro y d hd
      have h1 := ((he d hd).1 (byte (ap32 F y) d)).1
      have h2 := hFe y d hd
      rw [h2] at h1
      exact h1.symm
  · intro x hx hne
    constructor
    · intro k hk
      show (P2[x]!)[k]! = _
      rw [gP2 x k hx hk, if_neg (by omega), gP1 x k hx hk, if_neg (by omega)]
    · intro d k hd hk
      show ((E2[x]!)[d]!)[k]! = _
      rw [gE2 x d k hx hd hk, if_neg (by omega), gE1 x d k hx hd hk, if_neg (by omega)]
      exact hE x d k hx hd hk hne
    · intro k hk
      show (Q2[x]!)[k]! = _
      rw [gQ2 x k hx hk, if_neg (by omega), gQ1 x k hx hk, if_neg (by omega)]

theorem gen_affine_run (hl : lib.Ok) (fuel : Nat) (ho : Own s T) (g : Globals) :
    RunD (¬ Lucky2 lib fuel) (sm4_wb_gen_affine lib fuel g) s fun g' s' => Ext 1008 s T s' T ∧
      (∃ R : Nat → Row, ∀ i, i < 36 → RowRel s' T g' i (R i)) ∧ g'.skbox_enc = g.skbox_enc := by
  rw [sm4_wb_gen_affine]
  refine RunD.bind (P := fun g' s' => Ext 1008 s T s' T ∧
      (∃ R : Nat → Row, ∀ i, i < 36 → RowRel s' T g' i (R i)) ∧ g'.skbox_enc = g.skbox_enc) ?_ ?_
  · refine RunD.forUp (fun j g' s' => Ext (28 * j) s T s' T ∧
      (∃ R : Nat → Row, ∀ i, i < j → RowRel s' T g' i (R i)) ∧ g'.skbox_enc = g.skbox_enc) (by omega)
      ⟨Ext.refl ho, ⟨fun _ => ⟨fun _ => default, fun _ _ => default, default, fun _ => default⟩, fun _ h => by omega⟩, rfl⟩ ?_
      (fun g' s' h => ⟨h.1.cast rfl, h.2⟩)
    rintro i g1 s1 - hi ⟨x1, ⟨R, hR⟩, hs⟩
    refine (affineRow_run hl fuel x1.own g1 hi).mono ?_
    rintro g2 s2 ⟨x2, ⟨R', hR'⟩, hsame, hs2⟩
    refine ⟨x1.trans x2, ⟨fun x => if x = i then R' else R x, ?_⟩, hs2.trans hs⟩
    intro x hx
    show RowRel s2 T g2 x (if x = i then R' else R x)
    by_cases c : x = i
    · subst c; rw [if_pos rfl]; exact hR'
    · rw [if_neg c]
      exact (Ext.row x2 (hR x (by omega))).congr (hsame x (by omega) c)
  · rintro g1 s1 h
    refine RunD.step (free_any h.1.own.ok (.inl rfl)) ?_
    rw [setObj_eq_self h.1.own.ok.null]
    exact .inr (Run.pure h)

end sm4
end WB.m4ri
