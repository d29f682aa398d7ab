import Verif.Proof.Methods
import Verif.Model.RGE
import Verif.Prop.C13
import Verif.Prop.C06

/-!
# C56 — the matrices made by reverse Gaussian elimination are invertible

`/repo/test/RGEMethod_test.c`.  Generated by `tools/gen_c56.py`.
-/
namespace WB
open Matrix

theorem rgeInvTMatM4_ok (Mat : M4) (w : World) (h : w.randseed ≠ 0x7fffffff#32) :
    OkM (rge.InvTMatM4 Mat) w (fun A w' => (mat4 A).det = 1 ∧ CleanM4 A ∧ Drawn w.seeded w') := by
  obtain ⟨A0, hA0, h1, hc⟩ := C06_identityM4 Mat
  have hd : (mat4 A0).det = 1 := by rw [h1, det_one]
  unfold rge.InvTMatM4
  rw [OkM.bind_iff, OkM.liftC_iff, hA0, Ok.ok_iff, OkM.bind_iff]
  refine OkM_reseedInt h ?_
  refine (rge_loop (N := 3) (by norm_num) (matOf 4 (bitS 4)) (CleanM4) (xorRow · · ·) (swapRow · · ·) (opsS_ok4 idM4 idOK4).addF
    (opsS_ok4 idM4 idOK4).swpF A0 w.seeded).mono ?_
  rintro A w' ⟨hA, hG, hw⟩
  exact ⟨hA.trans hd, hG hc, hw⟩

/-- C56: `InvTMatM4` stores an invertible matrix, whatever the destination held, the seed and
the clock; `invsM4` then stores its inverse. -/
theorem C56_InvTMatM4 (Mat B0 : M4) (w : World) (h : w.randseed ≠ 0x7fffffff#32) :
    ∃ A B w', rge.InvTMatM4 Mat w = .ok (A, w') ∧ invsM4 A B0 = .ok B ∧
      mat4 A * mat4 B = 1 ∧ mat4 B * mat4 A = 1 ∧ CleanM4 A ∧ w'.randseed = w.randseed + 1 := by
  obtain ⟨⟨A, w'⟩, hA, hd, hcl, k, rfl⟩ := rgeInvTMatM4_ok Mat w h
  obtain ⟨B, hB, hAB, hBA, -⟩ := C13_invsM4 A B0 ((isUnit_iff_det _).2 hd)
  exact ⟨A, B, _, hA, hB, hAB, hBA, hcl, rfl⟩

/-- C56: with the largest `int` in `randseed` the increment overflows. -/
theorem C56_InvTMatM4_overflow (Mat : M4) (w : World) (h : w.randseed = 0x7fffffff#32) :
    rge.InvTMatM4 Mat w = .error .overflow := by
  obtain ⟨A0, hA0, -⟩ := C06_identityM4 Mat
  unfold rge.InvTMatM4
  rw [hA0, CM_bind_run (liftC_run w rfl)]
  exact CM_bind_error (reseedInt_overflow w h)

/-- A run. -/
example : (rge.InvTMatM4 exB4 exWorld).map (·.1) = .ok #v[0x08, 0x0b, 0x0f, 0x0d] := by decide +kernel

example : ∃ A w', rge.InvTMatM4 exB4 exWorld = .ok (A, w') ∧ IsUnit (mat4 A) := by
  obtain ⟨A, B, w', h, -, h1, h2, -⟩ := C56_InvTMatM4 exB4 exB4 exWorld (by decide)
  exact ⟨A, w', h, ⟨⟨_, _, h1, h2⟩, rfl⟩⟩
example : rge.InvTMatM4 exB4 { exWorld with randseed := 0x7fffffff } = .error .overflow :=
  C56_InvTMatM4_overflow _ _ rfl

theorem rgeInvTMatM8_ok (Mat : M8) (w : World) (h : w.randseed ≠ 0x7fffffff#32) :
    OkM (rge.InvTMatM8 Mat) w (fun A w' => (mat8 A).det = 1 ∧ Drawn w.seeded w') := by
  obtain ⟨A0, hA0, h1⟩ := C06_identityM8 Mat
  have hd : (mat8 A0).det = 1 := by rw [h1, det_one]
  unfold rge.InvTMatM8
  rw [OkM.bind_iff, OkM.liftC_iff, hA0, Ok.ok_iff, OkM.bind_iff]
  refine OkM_reseedInt h ?_
  refine (rge_loop (N := 7) (by norm_num) (matOf 8 (bitS 8)) (fun _ => True) (xorRow · · ·) (swapRow · · ·) (opsS_ok idM8 idOK8).addF
    (opsS_ok idM8 idOK8).swpF A0 w.seeded).mono ?_
  rintro A w' ⟨hA, hG, hw⟩
  exact ⟨hA.trans hd, hw⟩

/-- C56: `InvTMatM8` stores an invertible matrix, whatever the destination held, the seed and
the clock; `invsM8` then stores its inverse. -/
theorem C56_InvTMatM8 (Mat B0 : M8) (w : World) (h : w.randseed ≠ 0x7fffffff#32) :
    ∃ A B w', rge.InvTMatM8 Mat w = .ok (A, w') ∧ invsM8 A B0 = .ok B ∧
      mat8 A * mat8 B = 1 ∧ mat8 B * mat8 A = 1 ∧ w'.randseed = w.randseed + 1 := by
  obtain ⟨⟨A, w'⟩, hA, hd, k, rfl⟩ := rgeInvTMatM8_ok Mat w h
  obtain ⟨B, hB, hAB, hBA⟩ := C13_invsM8 A B0 ((isUnit_iff_det _).2 hd)
  exact ⟨A, B, _, hA, hB, hAB, hBA, rfl⟩

/-- C56: with the largest `int` in `randseed` the increment overflows. -/
theorem C56_InvTMatM8_overflow (Mat : M8) (w : World) (h : w.randseed = 0x7fffffff#32) :
    rge.InvTMatM8 Mat w = .error .overflow := by
  obtain ⟨A0, hA0, -⟩ := C06_identityM8 Mat
  unfold rge.InvTMatM8
  rw [hA0, CM_bind_run (liftC_run w rfl)]
  exact CM_bind_error (reseedInt_overflow w h)

/-- A run. -/
example : (rge.InvTMatM8 exB8 exWorld).map (·.1) = .ok #v[0x18, 0xed, 0x99, 0x24, 0xc2, 0x9e, 0x5f, 0xf3] := by decide +kernel

example : ∃ A w', rge.InvTMatM8 exB8 exWorld = .ok (A, w') ∧ IsUnit (mat8 A) := by
  obtain ⟨A, B, w', h, -, h1, h2, -⟩ := C56_InvTMatM8 exB8 exB8 exWorld (by decide)
  exact ⟨A, w', h, ⟨⟨_, _, h1, h2⟩, rfl⟩⟩
example : rge.InvTMatM8 exB8 { exWorld with randseed := 0x7fffffff } = .error .overflow :=
  C56_InvTMatM8_overflow _ _ rfl

theorem rgeInvTMatM16_ok (Mat : M16) (w : World) (h : w.randseed ≠ 0x7fffffff#32) :
    OkM (rge.InvTMatM16 Mat) w (fun A w' => (mat16 A).det = 1 ∧ Drawn w.seeded w') := by
  obtain ⟨A0, hA0, h1⟩ := C06_identityM16 Mat
  have hd : (mat16 A0).det = 1 := by rw [h1, det_one]
  unfold rge.InvTMatM16
  rw [OkM.bind_iff, OkM.liftC_iff, hA0, Ok.ok_iff, OkM.bind_iff]
  refine OkM_reseedInt h ?_
  refine (rge_loop (N := 15) (by norm_num) (matOf 16 (bitS 16)) (fun _ => True) (xorRow · · ·) (swapRow · · ·) (opsS_ok idM16 idOK16).addF
    (opsS_ok idM16 idOK16).swpF A0 w.seeded).mono ?_
  rintro A w' ⟨hA, hG, hw⟩
  exact ⟨hA.trans hd, hw⟩

/-- C56: `InvTMatM16` stores an invertible matrix, whatever the destination held, the seed and
the clock; `invsM16` then stores its inverse. -/
theorem C56_InvTMatM16 (Mat B0 : M16) (w : World) (h : w.randseed ≠ 0x7fffffff#32) :
    ∃ A B w', rge.InvTMatM16 Mat w = .ok (A, w') ∧ invsM16 A B0 = .ok B ∧
      mat16 A * mat16 B = 1 ∧ mat16 B * mat16 A = 1 ∧ w'.randseed = w.randseed + 1 := by
  obtain ⟨⟨A, w'⟩, hA, hd, k, rfl⟩ := rgeInvTMatM16_ok Mat w h
  obtain ⟨B, hB, hAB, hBA⟩ := C13_invsM16 A B0 ((isUnit_iff_det _).2 hd)
  exact ⟨A, B, _, hA, hB, hAB, hBA, rfl⟩

/-- C56: with the largest `int` in `randseed` the increment overflows. -/
theorem C56_InvTMatM16_overflow (Mat : M16) (w : World) (h : w.randseed = 0x7fffffff#32) :
    rge.InvTMatM16 Mat w = .error .overflow := by
  obtain ⟨A0, hA0, -⟩ := C06_identityM16 Mat
  unfold rge.InvTMatM16
  rw [hA0, CM_bind_run (liftC_run w rfl)]
  exact CM_bind_error (reseedInt_overflow w h)

example : ∃ A w', rge.InvTMatM16 exB16 exWorld = .ok (A, w') ∧ IsUnit (mat16 A) := by
  obtain ⟨A, B, w', h, -, h1, h2, -⟩ := C56_InvTMatM16 exB16 exB16 exWorld (by decide)
  exact ⟨A, w', h, ⟨⟨_, _, h1, h2⟩, rfl⟩⟩
example : rge.InvTMatM16 exB16 { exWorld with randseed := 0x7fffffff } = .error .overflow :=
  C56_InvTMatM16_overflow _ _ rfl

theorem rgeInvTMatM32_ok (Mat : M32) (w : World) (h : w.randseed ≠ 0x7fffffff#32) :
    OkM (rge.InvTMatM32 Mat) w (fun A w' => (mat32 A).det = 1 ∧ Drawn w.seeded w') := by
  obtain ⟨A0, hA0, h1⟩ := C06_identityM32 Mat
  have hd : (mat32 A0).det = 1 := by rw [h1, det_one]
  unfold rge.InvTMatM32
  rw [OkM.bind_iff, OkM.liftC_iff, hA0, Ok.ok_iff, OkM.bind_iff]
  refine OkM_reseedInt h ?_
  refine (rge_loop (N := 31) (by norm_num) (matOf 32 (bitS 32)) (fun _ => True) (xorRow · · ·) (swapRow · · ·) (opsS_ok idM32 idOK32).addF
    (opsS_ok idM32 idOK32).swpF A0 w.seeded).mono ?_
  rintro A w' ⟨hA, hG, hw⟩
  exact ⟨hA.trans hd, hw⟩

/-- C56: `InvTMatM32` stores an invertible matrix, whatever the destination held, the seed and
the clock; `invsM32` then stores its inverse. -/
theorem C56_InvTMatM32 (Mat B0 : M32) (w : World) (h : w.randseed ≠ 0x7fffffff#32) :
    ∃ A B w', rge.InvTMatM32 Mat w = .ok (A, w') ∧ invsM32 A B0 = .ok B ∧
      mat32 A * mat32 B = 1 ∧ mat32 B * mat32 A = 1 ∧ w'.randseed = w.randseed + 1 := by
  obtain ⟨⟨A, w'⟩, hA, hd, k, rfl⟩ := rgeInvTMatM32_ok Mat w h
  obtain ⟨B, hB, hAB, hBA⟩ := C13_invsM32 A B0 ((isUnit_iff_det _).2 hd)
  exact ⟨A, B, _, hA, hB, hAB, hBA, rfl⟩

/-- C56: with the largest `int` in `randseed` the increment overflows. -/
theorem C56_InvTMatM32_overflow (Mat : M32) (w : World) (h : w.randseed = 0x7fffffff#32) :
    rge.InvTMatM32 Mat w = .error .overflow := by
  obtain ⟨A0, hA0, -⟩ := C06_identityM32 Mat
  unfold rge.InvTMatM32
  rw [hA0, CM_bind_run (liftC_run w rfl)]
  exact CM_bind_error (reseedInt_overflow w h)

example : ∃ A w', rge.InvTMatM32 exB32 exWorld = .ok (A, w') ∧ IsUnit (mat32 A) := by
  obtain ⟨A, B, w', h, -, h1, h2, -⟩ := C56_InvTMatM32 exB32 exB32 exWorld (by decide)
  exact ⟨A, w', h, ⟨⟨_, _, h1, h2⟩, rfl⟩⟩
example : rge.InvTMatM32 exB32 { exWorld with randseed := 0x7fffffff } = .error .overflow :=
  C56_InvTMatM32_overflow _ _ rfl

theorem rgeInvTMatM64_ok (Mat : M64) (w : World) (h : w.randseed ≠ 0x7fffffff#32) :
    OkM (rge.InvTMatM64 Mat) w (fun A w' => (mat64 A).det = 1 ∧ Drawn w.seeded w') := by
  obtain ⟨A0, hA0, h1⟩ := C06_identityM64 Mat
  have hd : (mat64 A0).det = 1 := by rw [h1, det_one]
  unfold rge.InvTMatM64
  rw [OkM.bind_iff, OkM.liftC_iff, hA0, Ok.ok_iff, OkM.bind_iff]
  refine OkM_reseedInt h ?_
  refine (rge_loop (N := 63) (by norm_num) (matOf 64 (bitS 64)) (fun _ => True) (xorRow · · ·) (swapRow · · ·) (opsS_ok idM64 idOK64).addF
    (opsS_ok idM64 idOK64).swpF A0 w.seeded).mono ?_
  rintro A w' ⟨hA, hG, hw⟩
  exact ⟨hA.trans hd, hw⟩

/-- C56: `InvTMatM64` stores an invertible matrix, whatever the destination held, the seed and
the clock; `invsM64` then stores its inverse. -/
theorem C56_InvTMatM64 (Mat B0 : M64) (w : World) (h : w.randseed ≠ 0x7fffffff#32) :
    ∃ A B w', rge.InvTMatM64 Mat w = .ok (A, w') ∧ invsM64 A B0 = .ok B ∧
      mat64 A * mat64 B = 1 ∧ mat64 B * mat64 A = 1 ∧ w'.randseed = w.randseed + 1 := by
  obtain ⟨⟨A, w'⟩, hA, hd, k, rfl⟩ := rgeInvTMatM64_ok Mat w h
  obtain ⟨B, hB, hAB, hBA⟩ := C13_invsM64 A B0 ((isUnit_iff_det _).2 hd)
  exact ⟨A, B, _, hA, hB, hAB, hBA, rfl⟩

/-- C56: with the largest `int` in `randseed` the increment overflows. -/
theorem C56_InvTMatM64_overflow (Mat : M64) (w : World) (h : w.randseed = 0x7fffffff#32) :
    rge.InvTMatM64 Mat w = .error .overflow := by
  obtain ⟨A0, hA0, -⟩ := C06_identityM64 Mat
  unfold rge.InvTMatM64
  rw [hA0, CM_bind_run (liftC_run w rfl)]
  exact CM_bind_error (reseedInt_overflow w h)

example : ∃ A w', rge.InvTMatM64 exB64 exWorld = .ok (A, w') ∧ IsUnit (mat64 A) := by
  obtain ⟨A, B, w', h, -, h1, h2, -⟩ := C56_InvTMatM64 exB64 exB64 exWorld (by decide)
  exact ⟨A, w', h, ⟨⟨_, _, h1, h2⟩, rfl⟩⟩
example : rge.InvTMatM64 exB64 { exWorld with randseed := 0x7fffffff } = .error .overflow :=
  C56_InvTMatM64_overflow _ _ rfl

theorem rgeInvTMatM128_ok (Mat : M128) (w : World) (h : w.randseed ≠ 0x7fffffff#32) :
    OkM (rge.InvTMatM128 Mat) w (fun A w' => (mat128 A).det = 1 ∧ Drawn w.seeded w') := by
  obtain ⟨A0, hA0, h1⟩ := C06_identityM128 Mat
  have hd : (mat128 A0).det = 1 := by rw [h1, det_one]
  unfold rge.InvTMatM128
  rw [OkM.bind_iff, OkM.liftC_iff, hA0, Ok.ok_iff, OkM.bind_iff]
  refine OkM_reseedInt h ?_
  refine (rge_loop (N := 127) (by norm_num) (matOf 128 bitW) (fun _ => True) (xorWords [0, 1] · · ·) swapT2 (opsW128_0).addF
    (fun i j A hij => (swapT2_ok A i.2 j.2 (by
          intro e; exact hij (Fin.ext e))).mono fun A' h =>
          ⟨matW_swap (by norm_num) h (by intro c; have := c.2; simp; omega), fun _ => trivial⟩) A0 w.seeded).mono ?_
  rintro A w' ⟨hA, hG, hw⟩
  exact ⟨hA.trans hd, hw⟩

/-- C56: `InvTMatM128` stores an invertible matrix, whatever the destination held, the seed and
the clock; `invsM128` then stores its inverse. -/
theorem C56_InvTMatM128 (Mat B0 : M128) (w : World) (h : w.randseed ≠ 0x7fffffff#32) :
    ∃ A B w', rge.InvTMatM128 Mat w = .ok (A, w') ∧ invsM128 A B0 = .ok B ∧
      mat128 A * mat128 B = 1 ∧ mat128 B * mat128 A = 1 ∧ w'.randseed = w.randseed + 1 := by
  obtain ⟨⟨A, w'⟩, hA, hd, k, rfl⟩ := rgeInvTMatM128_ok Mat w h
  obtain ⟨B, hB, hAB, hBA⟩ := C13_invsM128 A B0 ((isUnit_iff_det _).2 hd)
  exact ⟨A, B, _, hA, hB, hAB, hBA, rfl⟩

/-- C56: with the largest `int` in `randseed` the increment overflows. -/
theorem C56_InvTMatM128_overflow (Mat : M128) (w : World) (h : w.randseed = 0x7fffffff#32) :
    rge.InvTMatM128 Mat w = .error .overflow := by
  obtain ⟨A0, hA0, -⟩ := C06_identityM128 Mat
  unfold rge.InvTMatM128
  rw [hA0, CM_bind_run (liftC_run w rfl)]
  exact CM_bind_error (reseedInt_overflow w h)

example : ∃ A w', rge.InvTMatM128 exB128 exWorld = .ok (A, w') ∧ IsUnit (mat128 A) := by
  obtain ⟨A, B, w', h, -, h1, h2, -⟩ := C56_InvTMatM128 exB128 exB128 exWorld (by decide)
  exact ⟨A, w', h, ⟨⟨_, _, h1, h2⟩, rfl⟩⟩
example : rge.InvTMatM128 exB128 { exWorld with randseed := 0x7fffffff } = .error .overflow :=
  C56_InvTMatM128_overflow _ _ rfl

theorem rgeInvTMatM256_ok (Mat : M256) (w : World) (h : w.randseed ≠ 0x7fffffff#32) :
    OkM (rge.InvTMatM256 Mat) w (fun A w' => (mat256 A).det = 1 ∧ Drawn w.seeded w') := by
  obtain ⟨A0, hA0, h1⟩ := C06_identityM256 Mat
  have hd : (mat256 A0).det = 1 := by rw [h1, det_one]
  unfold rge.InvTMatM256
  rw [OkM.bind_iff, OkM.liftC_iff, hA0, Ok.ok_iff, OkM.bind_iff]
  refine OkM_reseedInt h ?_
  refine (rge_loop (N := 255) (by norm_num) (matOf 256 bitW) (fun _ => True) (xorWords [0, 1, 2, 3] · · ·) swapT4 (opsW256_0).addF
    (fun i j A hij => (swapT4_ok A i.2 j.2 (by
          intro e; exact hij (Fin.ext e))).mono fun A' h =>
          ⟨matW_swap (by norm_num) h (by intro c; have := c.2; simp; omega), fun _ => trivial⟩) A0 w.seeded).mono ?_
  rintro A w' ⟨hA, hG, hw⟩
  exact ⟨hA.trans hd, hw⟩

/-- C56: `InvTMatM256` stores an invertible matrix, whatever the destination held, the seed and
the clock; `invsM256` then stores its inverse. -/
theorem C56_InvTMatM256 (Mat B0 : M256) (w : World) (h : w.randseed ≠ 0x7fffffff#32) :
    ∃ A B w', rge.InvTMatM256 Mat w = .ok (A, w') ∧ invsM256 A B0 = .ok B ∧
      mat256 A * mat256 B = 1 ∧ mat256 B * mat256 A = 1 ∧ w'.randseed = w.randseed + 1 := by
  obtain ⟨⟨A, w'⟩, hA, hd, k, rfl⟩ := rgeInvTMatM256_ok Mat w h
  obtain ⟨B, hB, hAB, hBA⟩ := C13_invsM256 A B0 ((isUnit_iff_det _).2 hd)
  exact ⟨A, B, _, hA, hB, hAB, hBA, rfl⟩

/-- C56: with the largest `int` in `randseed` the increment overflows. -/
theorem C56_InvTMatM256_overflow (Mat : M256) (w : World) (h : w.randseed = 0x7fffffff#32) :
    rge.InvTMatM256 Mat w = .error .overflow := by
  obtain ⟨A0, hA0, -⟩ := C06_identityM256 Mat
  unfold rge.InvTMatM256
  rw [hA0, CM_bind_run (liftC_run w rfl)]
  exact CM_bind_error (reseedInt_overflow w h)

example : ∃ A w', rge.InvTMatM256 exB256 exWorld = .ok (A, w') ∧ IsUnit (mat256 A) := by
  obtain ⟨A, B, w', h, -, h1, h2, -⟩ := C56_InvTMatM256 exB256 exB256 exWorld (by decide)
  exact ⟨A, w', h, ⟨⟨_, _, h1, h2⟩, rfl⟩⟩
example : rge.InvTMatM256 exB256 { exWorld with randseed := 0x7fffffff } = .error .overflow :=
  C56_InvTMatM256_overflow _ _ rfl

end WB
