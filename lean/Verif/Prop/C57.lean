import Verif.Proof.TriAll
import Verif.Model.RLUD
import Verif.Prop.C13

/-!
# C57 — the matrices made by reverse LU decomposition are invertible

`/repo/test/RLUDMethod_test.c`.  Generated by `tools/gen_c57.py`.
-/
namespace WB
open Matrix
open rlud (OddDraw)

/-- C57: `lowM4` stores a unit lower triangular matrix, whatever the destination held. -/
theorem C57_lowM4 (Mat : M4) (w : World) (h : w.randseed ≠ 0x7fffffff#32) :
    ∃ A w', rlud.lowM4 Mat w = .ok (A, w') ∧ (∀ i, mat4 A i i = 1) ∧ (∀ i j, i < j → mat4 A i j = 0) := by
  obtain ⟨⟨A, w'⟩, hA, ⟨h1, h2⟩, -⟩ := rlud.lowM4_ok Mat w h
  exact ⟨A, w', hA, h1, h2⟩

/-- C57: `upM4` stores a unit upper triangular matrix, whatever the destination held. -/
theorem C57_upM4 (Mat : M4) (w : World) (h : w.randseed ≠ 0x7fffffff#32) :
    ∃ A w', rlud.upM4 Mat w = .ok (A, w') ∧ (∀ i, mat4 A i i = 1) ∧ (∀ i j, j < i → mat4 A i j = 0) := by
  obtain ⟨⟨A, w'⟩, hA, ⟨h1, h2⟩, -⟩ := rlud.upM4_ok Mat w h
  exact ⟨A, w', hA, h1, h2⟩

theorem rludInvTMatM4_ok (env : Env) (Mat : M4) (w : World) (h : w.randseed < 0x7ffffffd#32 ∨ 0x7fffffff#32 < w.randseed) :
    OkM (rlud.InvTMatM4 env Mat) w (fun A w' => (mat4 A).det = 1 ∧ CleanM4 A ∧ w'.randseed = w.randseed + 3#32) := by
  have h0 : w.randseed ≠ 0x7fffffff#32 := by bv_omega
  have h1 : w.seeded.randseed ≠ 0x7fffffff#32 := by
    show w.randseed + 1#32 ≠ _
    bv_omega
  have h2 : (w.seeded.seeded.adv 6).randseed ≠ 0x7fffffff#32 := by
    show w.randseed + 1#32 + 1#32 ≠ _
    bv_omega
  unfold rlud.InvTMatM4
  rw [OkM.bind_iff]
  refine OkM_reseedInt h0 ?_
  rw [OkM.bind_iff]
  refine (rlud.lowM4_ok _ _ h1).mono ?_
  rintro L _ ⟨hL, rfl⟩
  obtain ⟨⟨U, w2⟩, hU0, hU, hw2⟩ := rlud.upM4_ok (env.junkArr 8 4) _ h2
  have hcl : CleanM4 U := by
    obtain ⟨⟨U', w3⟩, hU1, h3⟩ := rlud.upM4_clean (env.junkArr 8 4) _ h2
    rw [hU0] at hU1
    cases hU1
    exact h3
  rw [OkM.bind_iff]
  refine (show OkM _ _ _ from ⟨⟨U, w2⟩, hU0, ?_⟩)
  simp only
  rw [OkM.bind_iff, OkM.liftC_iff]
  refine (MatMulMatM4_ok env L U _ hcl).mono ?_
  rintro P ⟨hP, hPc⟩
  have hd : (mat4 P).det = 1 := by rw [hP, det_mul, hL.det, hU.det, one_mul]
  rw [OkM.bind_iff]
  refine (exchange_loop (N := 3) (by norm_num) (matOf 4 (bitS 4)) (CleanM4) (swapRow · · ·) (opsS_ok4 idM4 idOK4).swpF P _).mono ?_
  rintro A w' ⟨hA, hG, k, rfl⟩
  rw [OkM.liftC_iff, copyM4_eq, Ok.ok_iff]
  refine ⟨(hA.trans hd), hG hPc, ?_⟩
  subst hw2
  show w.randseed + 1#32 + 1#32 + 1#32 = _
  rw [BitVec.add_assoc, BitVec.add_assoc]
  rfl

/-- C57: `InvTMatM4` stores an invertible matrix, whatever its local arrays and the destination held, the
seed and the clock; `invsM4` then stores its inverse. -/
theorem C57_InvTMatM4 (env : Env) (Mat B0 : M4) (w : World)
    (h : w.randseed < 0x7ffffffd#32 ∨ 0x7fffffff#32 < w.randseed) :
    ∃ A B w', rlud.InvTMatM4 env Mat w = .ok (A, w') ∧ invsM4 A B0 = .ok B ∧
      mat4 A * mat4 B = 1 ∧ mat4 B * mat4 A = 1 ∧ CleanM4 A ∧ w'.randseed = w.randseed + 3 := by
  obtain ⟨⟨A, w'⟩, hA, hd, hcl, hw⟩ := rludInvTMatM4_ok env Mat w h
  obtain ⟨B, hB, hAB, hBA, -⟩ := C13_invsM4 A B0 ((isUnit_iff_det _).2 hd)
  exact ⟨A, B, _, hA, hB, hAB, hBA, hcl, hw⟩

/-- C57: with one of the three largest `int`s in `randseed` an increment overflows. -/
theorem C57_InvTMatM4_overflow (env : Env) (Mat : M4) (w : World)
    (h : 0x7ffffffd#32 ≤ w.randseed ∧ w.randseed ≤ 0x7fffffff#32) :
    rlud.InvTMatM4 env Mat w = .error .overflow := by
  unfold rlud.InvTMatM4
  by_cases h0 : w.randseed = 0x7fffffff#32
  · exact CM_bind_error (reseedInt_overflow w h0)
  rw [CM_bind_run (reseedInt_run w h0)]
  by_cases h1 : w.seeded.randseed = 0x7fffffff#32
  · refine CM_bind_error ?_
    unfold rlud.lowM4
    exact CM_bind_error (reseedInt_overflow _ h1)
  obtain ⟨⟨L, w1⟩, hL0, -, hw1⟩ := rlud.lowM4_ok (env.junkArr 8 4) _ h1
  simp only at hw1
  subst hw1
  rw [CM_bind_run hL0]
  refine CM_bind_error ?_
  unfold rlud.upM4
  refine CM_bind_error (reseedInt_overflow _ ?_)
  have h1' : w.randseed + 1#32 ≠ 0x7fffffff#32 := h1
  show w.randseed + 1#32 + 1#32 = _
  bv_omega

example : ∃ A w', rlud.InvTMatM4 exEnv exB4 exWorld = .ok (A, w') ∧ IsUnit (mat4 A) := by
  obtain ⟨A, B, w', h, -, h1, h2, -⟩ := C57_InvTMatM4 exEnv exB4 exB4 exWorld (Or.inl (by decide))
  exact ⟨A, w', h, ⟨⟨_, _, h1, h2⟩, rfl⟩⟩
example : rlud.InvTMatM4 exEnv exB4 { exWorld with randseed := 0x7ffffffe } = .error .overflow :=
  C57_InvTMatM4_overflow _ _ _ (by decide)

/-- A run. -/
example : (rlud.lowM4 exB4 exWorld).map (·.1) = .ok #v[0x08, 0x04, 0x0e, 0x03] := by decide +kernel
example : (rlud.upM4 exB4 exWorld).map (·.1) = .ok #v[0x0b, 0x04, 0x03, 0x01] := by decide +kernel
example : (rlud.InvTMatM4 exEnv exB4 exWorld).map (·.1) = .ok #v[0x09, 0x0e, 0x05, 0x0d] := by decide +kernel

/-- C57: `lowM8` stores a unit lower triangular matrix, whatever the destination held. -/
theorem C57_lowM8 (Mat : M8) (w : World) (h : w.randseed ≠ 0x7fffffff#32) :
    ∃ A w', rlud.lowM8 Mat w = .ok (A, w') ∧ (∀ i, mat8 A i i = 1) ∧ (∀ i j, i < j → mat8 A i j = 0) := by
  obtain ⟨⟨A, w'⟩, hA, ⟨h1, h2⟩, -⟩ := rlud.lowM8_ok Mat w h
  exact ⟨A, w', hA, h1, h2⟩

/-- C57: `upM8` stores a unit upper triangular matrix, whatever the destination held. -/
theorem C57_upM8 (Mat : M8) (w : World) (h : w.randseed ≠ 0x7fffffff#32) :
    ∃ A w', rlud.upM8 Mat w = .ok (A, w') ∧ (∀ i, mat8 A i i = 1) ∧ (∀ i j, j < i → mat8 A i j = 0) := by
  obtain ⟨⟨A, w'⟩, hA, ⟨h1, h2⟩, -⟩ := rlud.upM8_ok Mat w h
  exact ⟨A, w', hA, h1, h2⟩

theorem rludInvTMatM8_ok (env : Env) (Mat : M8) (w : World) (h : w.randseed < 0x7ffffffd#32 ∨ 0x7fffffff#32 < w.randseed) :
    OkM (rlud.InvTMatM8 env Mat) w (fun A w' => (mat8 A).det = 1 ∧ w'.randseed = w.randseed + 3#32) := by
  have h0 : w.randseed ≠ 0x7fffffff#32 := by bv_omega
  have h1 : w.seeded.randseed ≠ 0x7fffffff#32 := by
    show w.randseed + 1#32 ≠ _
    bv_omega
  have h2 : (w.seeded.seeded.adv 28).randseed ≠ 0x7fffffff#32 := by
    show w.randseed + 1#32 + 1#32 ≠ _
    bv_omega
  unfold rlud.InvTMatM8
  rw [OkM.bind_iff]
  refine OkM_reseedInt h0 ?_
  rw [OkM.bind_iff]
  refine (rlud.lowM8_ok _ _ h1).mono ?_
  rintro L _ ⟨hL, rfl⟩
  rw [OkM.bind_iff]
  refine (rlud.upM8_ok _ _ h2).mono ?_
  rintro U _ ⟨hU, rfl⟩
  rw [OkM.bind_iff, OkM.liftC_iff]
  refine (MatMulMatM8_ok env L U _).mono ?_
  intro P hP
  have hd : (mat8 P).det = 1 := by rw [hP, det_mul, hL.det, hU.det, one_mul]
  rw [OkM.bind_iff]
  refine (exchange_loop (N := 7) (by norm_num) (matOf 8 (bitS 8)) (fun _ => True) (swapRow · · ·) (opsS_ok idM8 idOK8).swpF P _).mono ?_
  rintro A w' ⟨hA, hG, k, rfl⟩
  rw [OkM.liftC_iff, copyM8_eq, Ok.ok_iff]
  refine ⟨(hA.trans hd), ?_⟩
  skip
  show w.randseed + 1#32 + 1#32 + 1#32 = _
  rw [BitVec.add_assoc, BitVec.add_assoc]
  rfl

/-- C57: `InvTMatM8` stores an invertible matrix, whatever its local arrays and the destination held, the
seed and the clock; `invsM8` then stores its inverse. -/
theorem C57_InvTMatM8 (env : Env) (Mat B0 : M8) (w : World)
    (h : w.randseed < 0x7ffffffd#32 ∨ 0x7fffffff#32 < w.randseed) :
    ∃ A B w', rlud.InvTMatM8 env Mat w = .ok (A, w') ∧ invsM8 A B0 = .ok B ∧
      mat8 A * mat8 B = 1 ∧ mat8 B * mat8 A = 1 ∧ w'.randseed = w.randseed + 3 := by
  obtain ⟨⟨A, w'⟩, hA, hd, hw⟩ := rludInvTMatM8_ok env Mat w h
  obtain ⟨B, hB, hAB, hBA⟩ := C13_invsM8 A B0 ((isUnit_iff_det _).2 hd)
  exact ⟨A, B, _, hA, hB, hAB, hBA, hw⟩

/-- C57: with one of the three largest `int`s in `randseed` an increment overflows. -/
theorem C57_InvTMatM8_overflow (env : Env) (Mat : M8) (w : World)
    (h : 0x7ffffffd#32 ≤ w.randseed ∧ w.randseed ≤ 0x7fffffff#32) :
    rlud.InvTMatM8 env Mat w = .error .overflow := by
  unfold rlud.InvTMatM8
  by_cases h0 : w.randseed = 0x7fffffff#32
  · exact CM_bind_error (reseedInt_overflow w h0)
  rw [CM_bind_run (reseedInt_run w h0)]
  by_cases h1 : w.seeded.randseed = 0x7fffffff#32
  · refine CM_bind_error ?_
    unfold rlud.lowM8
    exact CM_bind_error (reseedInt_overflow _ h1)
  obtain ⟨⟨L, w1⟩, hL0, -, hw1⟩ := rlud.lowM8_ok (env.junkArr 8 8) _ h1
  simp only at hw1
  subst hw1
  rw [CM_bind_run hL0]
  refine CM_bind_error ?_
  unfold rlud.upM8
  refine CM_bind_error (reseedInt_overflow _ ?_)
  have h1' : w.randseed + 1#32 ≠ 0x7fffffff#32 := h1
  show w.randseed + 1#32 + 1#32 = _
  bv_omega

example : ∃ A w', rlud.InvTMatM8 exEnv exB8 exWorld = .ok (A, w') ∧ IsUnit (mat8 A) := by
  obtain ⟨A, B, w', h, -, h1, h2, -⟩ := C57_InvTMatM8 exEnv exB8 exB8 exWorld (Or.inl (by decide))
  exact ⟨A, w', h, ⟨⟨_, _, h1, h2⟩, rfl⟩⟩
example : rlud.InvTMatM8 exEnv exB8 { exWorld with randseed := 0x7ffffffe } = .error .overflow :=
  C57_InvTMatM8_overflow _ _ _ (by decide)

/-- A run. -/
example : (rlud.lowM8 exB8 exWorld).map (·.1) = .ok #v[0x80, 0x40, 0xe0, 0x30, 0xd8, 0xfc, 0xe6, 0x4d] := by decide +kernel
example : (rlud.upM8 exB8 exWorld).map (·.1) = .ok #v[0xb3, 0x6f, 0x3f, 0x12, 0x0c, 0x07, 0x02, 0x01] := by decide +kernel
example : (rlud.InvTMatM8 exEnv exB8 exWorld).map (·.1) = .ok #v[0xf0, 0xb6, 0x41, 0x68, 0x80, 0x9b, 0x6d, 0xd2] := by decide +kernel

/-- C57: `lowM16` stores a unit lower triangular matrix, whatever the destination held. -/
theorem C57_lowM16 (Mat : M16) (w : World) (h : w.randseed ≠ 0x7fffffff#32) :
    ∃ A w', rlud.lowM16 Mat w = .ok (A, w') ∧ (∀ i, mat16 A i i = 1) ∧ (∀ i j, i < j → mat16 A i j = 0) := by
  obtain ⟨⟨A, w'⟩, hA, ⟨h1, h2⟩, -⟩ := rlud.lowM16_ok Mat w h
  exact ⟨A, w', hA, h1, h2⟩

/-- C57: `upM16` stores a unit upper triangular matrix, whatever the destination held. -/
theorem C57_upM16 (Mat : M16) (w : World) (h : w.randseed ≠ 0x7fffffff#32) :
    ∃ A w', rlud.upM16 Mat w = .ok (A, w') ∧ (∀ i, mat16 A i i = 1) ∧ (∀ i j, j < i → mat16 A i j = 0) := by
  obtain ⟨⟨A, w'⟩, hA, ⟨h1, h2⟩, -⟩ := rlud.upM16_ok Mat w h
  exact ⟨A, w', hA, h1, h2⟩

theorem rludInvTMatM16_ok (env : Env) (Mat : M16) (w : World) (h : w.randseed < 0x7ffffffd#32 ∨ 0x7fffffff#32 < w.randseed) :
    OkM (rlud.InvTMatM16 env Mat) w (fun A w' => (mat16 A).det = 1 ∧ w'.randseed = w.randseed + 3#32) := by
  have h0 : w.randseed ≠ 0x7fffffff#32 := by bv_omega
  have h1 : w.seeded.randseed ≠ 0x7fffffff#32 := by
    show w.randseed + 1#32 ≠ _
    bv_omega
  have h2 : (w.seeded.seeded.adv 120).randseed ≠ 0x7fffffff#32 := by
    show w.randseed + 1#32 + 1#32 ≠ _
    bv_omega
  unfold rlud.InvTMatM16
  rw [OkM.bind_iff]
  refine OkM_reseedInt h0 ?_
  rw [OkM.bind_iff]
  refine (rlud.lowM16_ok _ _ h1).mono ?_
  rintro L _ ⟨hL, rfl⟩
  rw [OkM.bind_iff]
  refine (rlud.upM16_ok _ _ h2).mono ?_
  rintro U _ ⟨hU, rfl⟩
  rw [OkM.bind_iff, OkM.liftC_iff]
  refine (MatMulMatM16_ok env L U _).mono ?_
  intro P hP
  have hd : (mat16 P).det = 1 := by rw [hP, det_mul, hL.det, hU.det, one_mul]
  rw [OkM.bind_iff]
  refine (exchange_loop (N := 15) (by norm_num) (matOf 16 (bitS 16)) (fun _ => True) (swapRow · · ·) (opsS_ok idM16 idOK16).swpF P _).mono ?_
  rintro A w' ⟨hA, hG, k, rfl⟩
  rw [OkM.liftC_iff, copyM16_eq, Ok.ok_iff]
  refine ⟨(hA.trans hd), ?_⟩
  skip
  show w.randseed + 1#32 + 1#32 + 1#32 = _
  rw [BitVec.add_assoc, BitVec.add_assoc]
  rfl

/-- C57: `InvTMatM16` stores an invertible matrix, whatever its local arrays and the destination held, the
seed and the clock; `invsM16` then stores its inverse. -/
theorem C57_InvTMatM16 (env : Env) (Mat B0 : M16) (w : World)
    (h : w.randseed < 0x7ffffffd#32 ∨ 0x7fffffff#32 < w.randseed) :
    ∃ A B w', rlud.InvTMatM16 env Mat w = .ok (A, w') ∧ invsM16 A B0 = .ok B ∧
      mat16 A * mat16 B = 1 ∧ mat16 B * mat16 A = 1 ∧ w'.randseed = w.randseed + 3 := by
  obtain ⟨⟨A, w'⟩, hA, hd, hw⟩ := rludInvTMatM16_ok env Mat w h
  obtain ⟨B, hB, hAB, hBA⟩ := C13_invsM16 A B0 ((isUnit_iff_det _).2 hd)
  exact ⟨A, B, _, hA, hB, hAB, hBA, hw⟩

/-- C57: with one of the three largest `int`s in `randseed` an increment overflows. -/
theorem C57_InvTMatM16_overflow (env : Env) (Mat : M16) (w : World)
    (h : 0x7ffffffd#32 ≤ w.randseed ∧ w.randseed ≤ 0x7fffffff#32) :
    rlud.InvTMatM16 env Mat w = .error .overflow := by
  unfold rlud.InvTMatM16
  by_cases h0 : w.randseed = 0x7fffffff#32
  · exact CM_bind_error (reseedInt_overflow w h0)
  rw [CM_bind_run (reseedInt_run w h0)]
  by_cases h1 : w.seeded.randseed = 0x7fffffff#32
  · refine CM_bind_error ?_
    unfold rlud.lowM16
    exact CM_bind_error (reseedInt_overflow _ h1)
  obtain ⟨⟨L, w1⟩, hL0, -, hw1⟩ := rlud.lowM16_ok (env.junkArr 16 16) _ h1
  simp only at hw1
  subst hw1
  rw [CM_bind_run hL0]
  refine CM_bind_error ?_
  unfold rlud.upM16
  refine CM_bind_error (reseedInt_overflow _ ?_)
  have h1' : w.randseed + 1#32 ≠ 0x7fffffff#32 := h1
  show w.randseed + 1#32 + 1#32 = _
  bv_omega

example : ∃ A w', rlud.InvTMatM16 exEnv exB16 exWorld = .ok (A, w') ∧ IsUnit (mat16 A) := by
  obtain ⟨A, B, w', h, -, h1, h2, -⟩ := C57_InvTMatM16 exEnv exB16 exB16 exWorld (Or.inl (by decide))
  exact ⟨A, w', h, ⟨⟨_, _, h1, h2⟩, rfl⟩⟩
example : rlud.InvTMatM16 exEnv exB16 { exWorld with randseed := 0x7ffffffe } = .error .overflow :=
  C57_InvTMatM16_overflow _ _ _ (by decide)

/-- C57: `lowM32` stores a unit lower triangular matrix, whatever the destination held. -/
theorem C57_lowM32 (Mat : M32) (w : World) (h : w.randseed ≠ 0x7fffffff#32) :
    ∃ A w', rlud.lowM32 Mat w = .ok (A, w') ∧ (∀ i, mat32 A i i = 1) ∧ (∀ i j, i < j → mat32 A i j = 0) := by
  obtain ⟨⟨A, w'⟩, hA, ⟨h1, h2⟩, -⟩ := rlud.lowM32_ok Mat w h
  exact ⟨A, w', hA, h1, h2⟩

/-- C57: `upM32` stores a unit upper triangular matrix, whatever the destination held. -/
theorem C57_upM32 (Mat : M32) (w : World) (h : w.randseed ≠ 0x7fffffff#32) :
    ∃ A w', rlud.upM32 Mat w = .ok (A, w') ∧ (∀ i, mat32 A i i = 1) ∧ (∀ i j, j < i → mat32 A i j = 0) := by
  obtain ⟨⟨A, w'⟩, hA, ⟨h1, h2⟩, -⟩ := rlud.upM32_ok Mat w h
  exact ⟨A, w', hA, h1, h2⟩

theorem rludInvTMatM32_ok (env : Env) (Mat : M32) (w : World) (h : w.randseed < 0x7ffffffd#32 ∨ 0x7fffffff#32 < w.randseed) :
    OkM (rlud.InvTMatM32 env Mat) w (fun A w' => (mat32 A).det = 1 ∧ w'.randseed = w.randseed + 3#32) := by
  have h0 : w.randseed ≠ 0x7fffffff#32 := by bv_omega
  have h1 : w.seeded.randseed ≠ 0x7fffffff#32 := by
    show w.randseed + 1#32 ≠ _
    bv_omega
  have h2 : (w.seeded.seeded.adv 496).randseed ≠ 0x7fffffff#32 := by
    show w.randseed + 1#32 + 1#32 ≠ _
    bv_omega
  unfold rlud.InvTMatM32
  rw [OkM.bind_iff]
  refine OkM_reseedInt h0 ?_
  rw [OkM.bind_iff]
  refine (rlud.lowM32_ok _ _ h1).mono ?_
  rintro L _ ⟨hL, rfl⟩
  rw [OkM.bind_iff]
  refine (rlud.upM32_ok _ _ h2).mono ?_
  rintro U _ ⟨hU, rfl⟩
  rw [OkM.bind_iff, OkM.liftC_iff]
  refine (MatMulMatM32_ok env L U _).mono ?_
  intro P hP
  have hd : (mat32 P).det = 1 := by rw [hP, det_mul, hL.det, hU.det, one_mul]
  rw [OkM.bind_iff]
  refine (exchange_loop (N := 31) (by norm_num) (matOf 32 (bitS 32)) (fun _ => True) (swapRow · · ·) (opsS_ok idM32 idOK32).swpF P _).mono ?_
  rintro A w' ⟨hA, hG, k, rfl⟩
  rw [OkM.liftC_iff, copyM32_eq, Ok.ok_iff]
  refine ⟨(hA.trans hd), ?_⟩
  skip
  show w.randseed + 1#32 + 1#32 + 1#32 = _
  rw [BitVec.add_assoc, BitVec.add_assoc]
  rfl

/-- C57: `InvTMatM32` stores an invertible matrix, whatever its local arrays and the destination held, the
seed and the clock; `invsM32` then stores its inverse. -/
theorem C57_InvTMatM32 (env : Env) (Mat B0 : M32) (w : World)
    (h : w.randseed < 0x7ffffffd#32 ∨ 0x7fffffff#32 < w.randseed) :
    ∃ A B w', rlud.InvTMatM32 env Mat w = .ok (A, w') ∧ invsM32 A B0 = .ok B ∧
      mat32 A * mat32 B = 1 ∧ mat32 B * mat32 A = 1 ∧ w'.randseed = w.randseed + 3 := by
  obtain ⟨⟨A, w'⟩, hA, hd, hw⟩ := rludInvTMatM32_ok env Mat w h
  obtain ⟨B, hB, hAB, hBA⟩ := C13_invsM32 A B0 ((isUnit_iff_det _).2 hd)
  exact ⟨A, B, _, hA, hB, hAB, hBA, hw⟩

/-- C57: with one of the three largest `int`s in `randseed` an increment overflows. -/
theorem C57_InvTMatM32_overflow (env : Env) (Mat : M32) (w : World)
    (h : 0x7ffffffd#32 ≤ w.randseed ∧ w.randseed ≤ 0x7fffffff#32) :
    rlud.InvTMatM32 env Mat w = .error .overflow := by
  unfold rlud.InvTMatM32
  by_cases h0 : w.randseed = 0x7fffffff#32
  · exact CM_bind_error (reseedInt_overflow w h0)
  rw [CM_bind_run (reseedInt_run w h0)]
  by_cases h1 : w.seeded.randseed = 0x7fffffff#32
  · refine CM_bind_error ?_
    unfold rlud.lowM32
    exact CM_bind_error (reseedInt_overflow _ h1)
  obtain ⟨⟨L, w1⟩, hL0, -, hw1⟩ := rlud.lowM32_ok (env.junkArr 32 32) _ h1
  simp only at hw1
  subst hw1
  rw [CM_bind_run hL0]
  refine CM_bind_error ?_
  unfold rlud.upM32
  refine CM_bind_error (reseedInt_overflow _ ?_)
  have h1' : w.randseed + 1#32 ≠ 0x7fffffff#32 := h1
  show w.randseed + 1#32 + 1#32 = _
  bv_omega

example : ∃ A w', rlud.InvTMatM32 exEnv exB32 exWorld = .ok (A, w') ∧ IsUnit (mat32 A) := by
  obtain ⟨A, B, w', h, -, h1, h2, -⟩ := C57_InvTMatM32 exEnv exB32 exB32 exWorld (Or.inl (by decide))
  exact ⟨A, w', h, ⟨⟨_, _, h1, h2⟩, rfl⟩⟩
example : rlud.InvTMatM32 exEnv exB32 { exWorld with randseed := 0x7ffffffe } = .error .overflow :=
  C57_InvTMatM32_overflow _ _ _ (by decide)

/-- C57: `lowM64` stores a unit lower triangular matrix, whatever the destination held. -/
theorem C57_lowM64 (Mat : M64) (w : World) (h : w.randseed ≠ 0x7fffffff#32) :
    ∃ A w', rlud.lowM64 Mat w = .ok (A, w') ∧ (∀ i, mat64 A i i = 1) ∧ (∀ i j, i < j → mat64 A i j = 0) := by
  obtain ⟨⟨A, w'⟩, hA, ⟨h1, h2⟩, -⟩ := rlud.lowM64_ok Mat w h
  exact ⟨A, w', hA, h1, h2⟩

/-- C57: `upM64` stores a unit upper triangular matrix, whatever the destination held. -/
theorem C57_upM64 (Mat : M64) (w : World) (h : w.randseed ≠ 0x7fffffff#32) :
    ∃ A w', rlud.upM64 Mat w = .ok (A, w') ∧ (∀ i, mat64 A i i = 1) ∧ (∀ i j, j < i → mat64 A i j = 0) := by
  obtain ⟨⟨A, w'⟩, hA, ⟨h1, h2⟩, -⟩ := rlud.upM64_ok Mat w h
  exact ⟨A, w', hA, h1, h2⟩

theorem rludInvTMatM64_ok (env : Env) (Mat : M64) (w : World) (h : w.randseed < 0x7ffffffd#32 ∨ 0x7fffffff#32 < w.randseed) :
    OkM (rlud.InvTMatM64 env Mat) w (fun A w' => (mat64 A).det = 1 ∧ w'.randseed = w.randseed + 3#32) := by
  have h0 : w.randseed ≠ 0x7fffffff#32 := by bv_omega
  have h1 : w.seeded.randseed ≠ 0x7fffffff#32 := by
    show w.randseed + 1#32 ≠ _
    bv_omega
  have h2 : (w.seeded.seeded.adv 2016).randseed ≠ 0x7fffffff#32 := by
    show w.randseed + 1#32 + 1#32 ≠ _
    bv_omega
  unfold rlud.InvTMatM64
  rw [OkM.bind_iff]
  refine OkM_reseedInt h0 ?_
  rw [OkM.bind_iff]
  refine (rlud.lowM64_ok _ _ h1).mono ?_
  rintro L _ ⟨hL, rfl⟩
  rw [OkM.bind_iff]
  refine (rlud.upM64_ok _ _ h2).mono ?_
  rintro U _ ⟨hU, rfl⟩
  rw [OkM.bind_iff, OkM.liftC_iff]
  refine (MatMulMatM64_ok env L U _).mono ?_
  intro P hP
  have hd : (mat64 P).det = 1 := by rw [hP, det_mul, hL.det, hU.det, one_mul]
  rw [OkM.bind_iff]
  refine (exchange_loop (N := 63) (by norm_num) (matOf 64 (bitS 64)) (fun _ => True) (swapRow · · ·) (opsS_ok idM64 idOK64).swpF P _).mono ?_
  rintro A w' ⟨hA, hG, k, rfl⟩
  rw [OkM.liftC_iff, copyM64_eq, Ok.ok_iff]
  refine ⟨(hA.trans hd), ?_⟩
  skip
  show w.randseed + 1#32 + 1#32 + 1#32 = _
  rw [BitVec.add_assoc, BitVec.add_assoc]
  rfl

/-- C57: `InvTMatM64` stores an invertible matrix, whatever its local arrays and the destination held, the
seed and the clock; `invsM64` then stores its inverse. -/
theorem C57_InvTMatM64 (env : Env) (Mat B0 : M64) (w : World)
    (h : w.randseed < 0x7ffffffd#32 ∨ 0x7fffffff#32 < w.randseed) :
    ∃ A B w', rlud.InvTMatM64 env Mat w = .ok (A, w') ∧ invsM64 A B0 = .ok B ∧
      mat64 A * mat64 B = 1 ∧ mat64 B * mat64 A = 1 ∧ w'.randseed = w.randseed + 3 := by
  obtain ⟨⟨A, w'⟩, hA, hd, hw⟩ := rludInvTMatM64_ok env Mat w h
  obtain ⟨B, hB, hAB, hBA⟩ := C13_invsM64 A B0 ((isUnit_iff_det _).2 hd)
  exact ⟨A, B, _, hA, hB, hAB, hBA, hw⟩

/-- C57: with one of the three largest `int`s in `randseed` an increment overflows. -/
theorem C57_InvTMatM64_overflow (env : Env) (Mat : M64) (w : World)
    (h : 0x7ffffffd#32 ≤ w.randseed ∧ w.randseed ≤ 0x7fffffff#32) :
    rlud.InvTMatM64 env Mat w = .error .overflow := by
  unfold rlud.InvTMatM64
  by_cases h0 : w.randseed = 0x7fffffff#32
  · exact CM_bind_error (reseedInt_overflow w h0)
  rw [CM_bind_run (reseedInt_run w h0)]
  by_cases h1 : w.seeded.randseed = 0x7fffffff#32
  · refine CM_bind_error ?_
    unfold rlud.lowM64
    exact CM_bind_error (reseedInt_overflow _ h1)
  obtain ⟨⟨L, w1⟩, hL0, -, hw1⟩ := rlud.lowM64_ok (env.junkArr 64 64) _ h1
  simp only at hw1
  subst hw1
  rw [CM_bind_run hL0]
  refine CM_bind_error ?_
  unfold rlud.upM64
  refine CM_bind_error (reseedInt_overflow _ ?_)
  have h1' : w.randseed + 1#32 ≠ 0x7fffffff#32 := h1
  show w.randseed + 1#32 + 1#32 = _
  bv_omega

example : ∃ A w', rlud.InvTMatM64 exEnv exB64 exWorld = .ok (A, w') ∧ IsUnit (mat64 A) := by
  obtain ⟨A, B, w', h, -, h1, h2, -⟩ := C57_InvTMatM64 exEnv exB64 exB64 exWorld (Or.inl (by decide))
  exact ⟨A, w', h, ⟨⟨_, _, h1, h2⟩, rfl⟩⟩
example : rlud.InvTMatM64 exEnv exB64 { exWorld with randseed := 0x7ffffffe } = .error .overflow :=
  C57_InvTMatM64_overflow _ _ _ (by decide)

/-- C57: `lowM128` stores a unit lower triangular matrix, whatever the destination held. -/
theorem C57_lowM128 (Mat : M128) (w : World) (h : w.randseed ≠ 0x7fffffff#32) :
    ∃ A w', rlud.lowM128 Mat w = .ok (A, w') ∧ (∀ i, mat128 A i i = 1) ∧ (∀ i j, i < j → mat128 A i j = 0) := by
  obtain ⟨⟨A, w'⟩, hA, ⟨h1, h2⟩, -⟩ := rlud.lowM128_ok Mat w h
  exact ⟨A, w', hA, h1, h2⟩

/-- C57: `upM128` stores a unit upper triangular matrix, whatever the destination held. -/
theorem C57_upM128 (Mat : M128) (w : World) (h : w.randseed ≠ 0x7fffffff#32) :
    ∃ A w', rlud.upM128 Mat w = .ok (A, w') ∧ (∀ i, mat128 A i i = 1) ∧ (∀ i j, j < i → mat128 A i j = 0) := by
  obtain ⟨⟨A, w'⟩, hA, ⟨h1, h2⟩, -⟩ := rlud.upM128_ok Mat w h
  exact ⟨A, w', hA, h1, h2⟩

theorem rludInvTMatM128_ok (env : Env) (Mat : M128) (w : World) (h : w.randseed < 0x7ffffffd#32 ∨ 0x7fffffff#32 < w.randseed) :
    OkM (rlud.InvTMatM128 env Mat) w (fun A w' => (mat128 A).det = 1 ∧ w'.randseed = w.randseed + 3#32) := by
  have h0 : w.randseed ≠ 0x7fffffff#32 := by bv_omega
  have h1 : w.seeded.randseed ≠ 0x7fffffff#32 := by
    show w.randseed + 1#32 ≠ _
    bv_omega
  have h2 : (w.seeded.seeded.adv 8128).randseed ≠ 0x7fffffff#32 := by
    show w.randseed + 1#32 + 1#32 ≠ _
    bv_omega
  unfold rlud.InvTMatM128
  rw [OkM.bind_iff]
  refine OkM_reseedInt h0 ?_
  rw [OkM.bind_iff]
  refine (rlud.lowM128_ok _ _ h1).mono ?_
  rintro L _ ⟨hL, rfl⟩
  rw [OkM.bind_iff]
  refine (rlud.upM128_ok _ _ h2).mono ?_
  rintro U _ ⟨hU, rfl⟩
  rw [OkM.bind_iff, OkM.liftC_iff]
  refine (MatMulMatM128_ok env L U _).mono ?_
  intro P hP
  have hd : (mat128 P).det = 1 := by rw [hP, det_mul, hL.det, hU.det, one_mul]
  rw [OkM.bind_iff]
  refine (exchange_loop (N := 127) (by norm_num) (matOf 128 bitW) (fun _ => True) (swapWords [0, 1] · · ·) (opsW128_0).swpF P _).mono ?_
  rintro A w' ⟨hA, hG, k, rfl⟩
  rw [OkM.liftC_iff, copyM128_eq, Ok.ok_iff]
  refine ⟨(hA.trans hd), ?_⟩
  skip
  show w.randseed + 1#32 + 1#32 + 1#32 = _
  rw [BitVec.add_assoc, BitVec.add_assoc]
  rfl

/-- C57: `InvTMatM128` stores an invertible matrix, whatever its local arrays and the destination held, the
seed and the clock; `invsM128` then stores its inverse. -/
theorem C57_InvTMatM128 (env : Env) (Mat B0 : M128) (w : World)
    (h : w.randseed < 0x7ffffffd#32 ∨ 0x7fffffff#32 < w.randseed) :
    ∃ A B w', rlud.InvTMatM128 env Mat w = .ok (A, w') ∧ invsM128 A B0 = .ok B ∧
      mat128 A * mat128 B = 1 ∧ mat128 B * mat128 A = 1 ∧ w'.randseed = w.randseed + 3 := by
  obtain ⟨⟨A, w'⟩, hA, hd, hw⟩ := rludInvTMatM128_ok env Mat w h
  obtain ⟨B, hB, hAB, hBA⟩ := C13_invsM128 A B0 ((isUnit_iff_det _).2 hd)
  exact ⟨A, B, _, hA, hB, hAB, hBA, hw⟩

/-- C57: with one of the three largest `int`s in `randseed` an increment overflows. -/
theorem C57_InvTMatM128_overflow (env : Env) (Mat : M128) (w : World)
    (h : 0x7ffffffd#32 ≤ w.randseed ∧ w.randseed ≤ 0x7fffffff#32) :
    rlud.InvTMatM128 env Mat w = .error .overflow := by
  unfold rlud.InvTMatM128
  by_cases h0 : w.randseed = 0x7fffffff#32
  · exact CM_bind_error (reseedInt_overflow w h0)
  rw [CM_bind_run (reseedInt_run w h0)]
  by_cases h1 : w.seeded.randseed = 0x7fffffff#32
  · refine CM_bind_error ?_
    unfold rlud.lowM128
    exact CM_bind_error (reseedInt_overflow _ h1)
  obtain ⟨⟨L, w1⟩, hL0, -, hw1⟩ := rlud.lowM128_ok (env.junkArr2 64 2 128) _ h1
  simp only at hw1
  subst hw1
  rw [CM_bind_run hL0]
  refine CM_bind_error ?_
  unfold rlud.upM128
  refine CM_bind_error (reseedInt_overflow _ ?_)
  have h1' : w.randseed + 1#32 ≠ 0x7fffffff#32 := h1
  show w.randseed + 1#32 + 1#32 = _
  bv_omega

example : ∃ A w', rlud.InvTMatM128 exEnv exB128 exWorld = .ok (A, w') ∧ IsUnit (mat128 A) := by
  obtain ⟨A, B, w', h, -, h1, h2, -⟩ := C57_InvTMatM128 exEnv exB128 exB128 exWorld (Or.inl (by decide))
  exact ⟨A, w', h, ⟨⟨_, _, h1, h2⟩, rfl⟩⟩
example : rlud.InvTMatM128 exEnv exB128 { exWorld with randseed := 0x7ffffffe } = .error .overflow :=
  C57_InvTMatM128_overflow _ _ _ (by decide)

/-- C57: `lowM256` stores a unit lower triangular matrix, whatever the destination held. -/
theorem C57_lowM256 (Mat : M256) (w : World) (h : w.randseed ≠ 0x7fffffff#32) :
    ∃ A w', rlud.lowM256 Mat w = .ok (A, w') ∧ (∀ i, mat256 A i i = 1) ∧ (∀ i j, i < j → mat256 A i j = 0) := by
  obtain ⟨⟨A, w'⟩, hA, ⟨h1, h2⟩, -⟩ := rlud.lowM256_ok Mat w h
  exact ⟨A, w', hA, h1, h2⟩

/-- C57: `upM256` as ISO C reads it: it indexes past the end of a row exactly if one of its last 2016
draws is odd, and otherwise stores a unit upper triangular matrix whose last 64 rows are those of the
identity. -/
theorem C57_upM256_partial (Mat : M256) (w : World) (h : w.randseed ≠ 0x7fffffff#32) :
    ((∃ k, k < 2016 ∧ OddDraw w.seeded (30624 + k)) ∧ rlud.upM256 .strict Mat w = .error .oob) ∨
    ((∀ k, k < 2016 → ¬ OddDraw w.seeded (30624 + k)) ∧
      ∃ A w', rlud.upM256 .strict Mat w = .ok (A, w') ∧ (∀ i, mat256 A i i = 1) ∧
        (∀ i j, j < i → mat256 A i j = 0) ∧
        ∀ i j : Fin 256, 192 ≤ i.val → mat256 A i j = if i = j then 1 else 0) := by
  classical
  by_cases ho : ∃ k, k < 2016 ∧ OddDraw w.seeded (30624 + k)
  · exact Or.inl ⟨ho, (rlud.upM256_strict Mat w h).1 ho⟩
  · have hn : ∀ k, k < 2016 → ¬ OddDraw w.seeded (30624 + k) := fun k hk h' => ho ⟨k, hk, h'⟩
    obtain ⟨A, hA, ⟨h1, h2⟩, h3⟩ := (rlud.upM256_strict Mat w h).2 hn
    exact Or.inr ⟨hn, A, _, hA, h1, h2, h3⟩

/-- C57: the rows of a matrix follow each other in memory.  If the access past the end of a row reaches the
next row, `upM256` stores a unit upper triangular matrix whose last 64 rows are those of the identity. -/
theorem C57_upM256_flat_partial (Mat : M256) (w : World) (h : w.randseed ≠ 0x7fffffff#32) :
    ∃ A w', rlud.upM256 .flat Mat w = .ok (A, w') ∧ (∀ i, mat256 A i i = 1) ∧
      (∀ i j, j < i → mat256 A i j = 0) ∧
      ∀ i j : Fin 256, 192 ≤ i.val → mat256 A i j = if i = j then 1 else 0 := by
  obtain ⟨⟨A, w'⟩, hA, ⟨h1, h2⟩, h3, -⟩ := rlud.upM256_ok Mat w h
  exact ⟨A, w', hA, h1, h2, h3⟩

/-- C57: `upM256` does index past the end of a row, for instance with seed 0. -/
theorem C57_upM256_violated : ∃ w : World, w.randseed = 0 ∧
    ∀ Mat, rlud.upM256 .strict Mat w = .error .oob :=
  ⟨{ exWorld with randseed := 0 }, rfl, fun Mat => (rlud.upM256_strict Mat _ (by decide)).1
    ⟨2, by norm_num, by decide +kernel⟩⟩

theorem rludInvTMatM256_ok (env : Env) (Mat : M256) (w : World) (h : w.randseed < 0x7ffffffd#32 ∨ 0x7fffffff#32 < w.randseed) :
    OkM (rlud.InvTMatM256 env .flat Mat) w (fun A w' => (mat256 A).det = 1 ∧ w'.randseed = w.randseed + 3#32) := by
  have h0 : w.randseed ≠ 0x7fffffff#32 := by bv_omega
  have h1 : w.seeded.randseed ≠ 0x7fffffff#32 := by
    show w.randseed + 1#32 ≠ _
    bv_omega
  have h2 : (w.seeded.seeded.adv 32640).randseed ≠ 0x7fffffff#32 := by
    show w.randseed + 1#32 + 1#32 ≠ _
    bv_omega
  unfold rlud.InvTMatM256
  rw [OkM.bind_iff]
  refine OkM_reseedInt h0 ?_
  rw [OkM.bind_iff]
  refine (rlud.lowM256_ok _ _ h1).mono ?_
  rintro L _ ⟨hL, rfl⟩
  rw [OkM.bind_iff]
  refine (rlud.upM256_ok _ _ h2).mono ?_
  rintro U _ ⟨hU, -, rfl⟩
  rw [OkM.bind_iff, OkM.liftC_iff]
  refine (MatMulMatM256_ok env L U _).mono ?_
  intro P hP
  have hd : (mat256 P).det = 1 := by rw [hP, det_mul, hL.det, hU.det, one_mul]
  rw [OkM.bind_iff]
  refine (exchange_loop (N := 255) (by norm_num) (matOf 256 bitW) (fun _ => True) (swapWords [0, 1, 2, 3] · · ·) (opsW256_0).swpF P _).mono ?_
  rintro A w' ⟨hA, hG, k, rfl⟩
  rw [OkM.liftC_iff, copyM256_eq, Ok.ok_iff]
  refine ⟨(hA.trans hd), ?_⟩
  skip
  show w.randseed + 1#32 + 1#32 + 1#32 = _
  rw [BitVec.add_assoc, BitVec.add_assoc]
  rfl

/-- C57: on a machine where the access past the end of a row reaches the next row, `InvTMatM256` stores an
invertible matrix, and `invsM256` its inverse. -/
theorem C57_InvTMatM256_flat_partial (env : Env) (Mat B0 : M256) (w : World)
    (h : w.randseed < 0x7ffffffd#32 ∨ 0x7fffffff#32 < w.randseed) :
    ∃ A B w', rlud.InvTMatM256 env .flat Mat w = .ok (A, w') ∧ invsM256 A B0 = .ok B ∧
      mat256 A * mat256 B = 1 ∧ mat256 B * mat256 A = 1 ∧ w'.randseed = w.randseed + 3 := by
  obtain ⟨⟨A, w'⟩, hA, hd, hw⟩ := rludInvTMatM256_ok env Mat w h
  obtain ⟨B, hB, hAB, hBA⟩ := C13_invsM256 A B0 ((isUnit_iff_det _).2 hd)
  exact ⟨A, B, _, hA, hB, hAB, hBA, hw⟩

/-- C57: as ISO C reads it, `InvTMatM256` indexes past the end of a row exactly if one of 2016 draws is odd,
and otherwise stores an invertible matrix, and `invsM256` its inverse. -/
theorem C57_InvTMatM256_partial (env : Env) (Mat B0 : M256) (w : World)
    (h : w.randseed < 0x7ffffffd#32 ∨ 0x7fffffff#32 < w.randseed) :
    ((∃ k, k < 2016 ∧ OddDraw w.seeded.seeded.seeded (30624 + k)) ∧
      rlud.InvTMatM256 env .strict Mat w = .error .oob) ∨
    ((∀ k, k < 2016 → ¬ OddDraw w.seeded.seeded.seeded (30624 + k)) ∧
      ∃ A B w', rlud.InvTMatM256 env .strict Mat w = .ok (A, w') ∧ invsM256 A B0 = .ok B ∧
      mat256 A * mat256 B = 1 ∧ mat256 B * mat256 A = 1 ∧ w'.randseed = w.randseed + 3) := by
  classical
  have h0 : w.randseed ≠ 0x7fffffff#32 := by bv_omega
  have h1 : w.seeded.randseed ≠ 0x7fffffff#32 := by
    show w.randseed + 1#32 ≠ _
    bv_omega
  have h2 : (w.seeded.seeded.adv 32640).randseed ≠ 0x7fffffff#32 := by
    show w.randseed + 1#32 + 1#32 ≠ _
    bv_omega
  obtain ⟨⟨L, w1⟩, hL0, hL, hw1⟩ := rlud.lowM256_ok (env.junkArr2 64 4 256) _ h1
  simp only at hL hw1
  subst hw1
  obtain ⟨hS1, hS2⟩ := rlud.upM256_strict (env.junkArr2 64 4 256) _ h2
  have hrun : rlud.InvTMatM256 env .strict Mat w = (rlud.upM256 .strict (env.junkArr2 64 4 256) >>= fun mat2 => do
    let mat3 ← liftC (MatMulMatM256 env L mat2 (env.junkArr2 64 4 256))
    let mat3 ← forUp 0 255 mat3 fun i mat3 => do
      let r ← cus_random
      liftC do
        let randpivot := i + 1 + (← umod r (BitVec.ofNat 32 (255 - i))).toNat
        swapWords [0, 1, 2, 3] mat3 i randpivot
    liftC (copyM256 mat3 Mat)) (w.seeded.seeded.adv 32640) := by
    unfold rlud.InvTMatM256
    rw [CM_bind_run (reseedInt_run w h0), CM_bind_run hL0]
  have hseed : (w.seeded.seeded.adv 32640).seeded = w.seeded.seeded.seeded := rlud.seeded_adv _ _
  rw [hseed] at hS1 hS2
  by_cases ho : ∃ k, k < 2016 ∧ OddDraw w.seeded.seeded.seeded (30624 + k)
  · exact Or.inl ⟨ho, by rw [hrun]; exact CM_bind_error (hS1 ho)⟩
  · have hn : ∀ k, k < 2016 → ¬ OddDraw w.seeded.seeded.seeded (30624 + k) := fun k hk h' => ho ⟨k, hk, h'⟩
    refine Or.inr ⟨hn, ?_⟩
    obtain ⟨U, hU0, hU, -⟩ := hS2 hn
    have hok : OkM (rlud.InvTMatM256 env .strict Mat) w
        (fun A w' => (mat256 A).det = 1 ∧ w'.randseed = w.randseed + 3#32) := by
      refine rlud.OkM_of_eq (hrun.trans (CM_bind_run hU0)) ?_
      rw [OkM.bind_iff, OkM.liftC_iff]
      refine (MatMulMatM256_ok env L U _).mono ?_
      intro P hP
      have hd : (mat256 P).det = 1 := by rw [hP, det_mul, hL.det, hU.det, one_mul]
      rw [OkM.bind_iff]
      refine (exchange_loop (N := 255) (by norm_num) (matOf 256 bitW) (fun _ => True) (swapWords [0, 1, 2, 3] · · ·) (opsW256_0).swpF P _).mono ?_
      rintro A w' ⟨hA, hG, k, rfl⟩
      rw [OkM.liftC_iff, copyM256_eq, Ok.ok_iff]
      refine ⟨hA.trans hd, ?_⟩
      show w.randseed + 1#32 + 1#32 + 1#32 = _
      rw [BitVec.add_assoc, BitVec.add_assoc]
      rfl
    obtain ⟨⟨A, w'⟩, hA, hd, hw⟩ := hok
    obtain ⟨B, hB, hAB, hBA⟩ := C13_invsM256 A B0 ((isUnit_iff_det _).2 hd)
    exact ⟨A, B, _, hA, hB, hAB, hBA, hw⟩

/-- C57: `InvTMatM256` does index past the end of a row, for instance with seed 0. -/
theorem C57_InvTMatM256_violated : ∃ w : World, w.randseed = 0 ∧
    ∀ env Mat, rlud.InvTMatM256 env .strict Mat w = .error .oob := by
  refine ⟨{ exWorld with randseed := 0 }, rfl, fun env Mat => ?_⟩
  rcases C57_InvTMatM256_partial env Mat Mat { exWorld with randseed := 0 } (Or.inl (by decide)) with h | h
  · exact h.2
  · exact absurd (by decide +kernel) (h.1 2 (by norm_num))

/-- C57: with one of the three largest `int`s in `randseed` an increment overflows. -/
theorem C57_InvTMatM256_overflow (env : Env) (rows : rlud.Rows) (Mat : M256) (w : World)
    (h : 0x7ffffffd#32 ≤ w.randseed ∧ w.randseed ≤ 0x7fffffff#32) :
    rlud.InvTMatM256 env rows Mat w = .error .overflow := by
  unfold rlud.InvTMatM256
  by_cases h0 : w.randseed = 0x7fffffff#32
  · exact CM_bind_error (reseedInt_overflow w h0)
  rw [CM_bind_run (reseedInt_run w h0)]
  by_cases h1 : w.seeded.randseed = 0x7fffffff#32
  · refine CM_bind_error ?_
    unfold rlud.lowM256
    exact CM_bind_error (reseedInt_overflow _ h1)
  obtain ⟨⟨L, w1⟩, hL0, -, hw1⟩ := rlud.lowM256_ok (env.junkArr2 64 4 256) _ h1
  simp only at hw1
  subst hw1
  rw [CM_bind_run hL0]
  refine CM_bind_error ?_
  unfold rlud.upM256
  refine CM_bind_error (reseedInt_overflow _ ?_)
  have h1' : w.randseed + 1#32 ≠ 0x7fffffff#32 := h1
  show w.randseed + 1#32 + 1#32 = _
  bv_omega

example : ∃ A w', rlud.InvTMatM256 exEnv .flat exB256 exWorld = .ok (A, w') ∧ IsUnit (mat256 A) := by
  obtain ⟨A, B, w', h, -, h1, h2, -⟩ := C57_InvTMatM256_flat_partial exEnv exB256 exB256 exWorld (Or.inl (by decide))
  exact ⟨A, w', h, ⟨⟨_, _, h1, h2⟩, rfl⟩⟩
example : rlud.InvTMatM256 exEnv .strict exB256 { exWorld with randseed := 0x7ffffffe } = .error .overflow :=
  C57_InvTMatM256_overflow _ _ _ _ (by decide)

end WB
