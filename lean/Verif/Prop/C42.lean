import Verif.Proof.RelAll
import Verif.Proof.ElimAll
import Verif.Prop.C15
import Verif.Prop.C29Seed

/-!
# C42 — genMatpair hands out the matrix it drew (written by tools/gen_props10.py)
-/
namespace WB
open Matrix

set_option maxRecDepth 20000

/-- C42: let `T` be the matrix that `randM4` draws from the seed value `genMatpairM4` uses (counter plus
one, second clock reading).  If `T` is invertible then `genMatpairM4` returns exactly `T` and its inverse,
and leaves the generator where `randM4` leaves it. If `T` is singular something else is returned. -/
theorem C42_genMatpairM4 (env : Env) (A0 B0 X : M4) (w v : World)
    (h : v.randseed ^^^ v.clock v.now = (w.randseed + 1#32) ^^^ w.clock (w.now + 1)) :
    ∃ A B w' T v', genMatpairM4 env A0 B0 w = .ok ((A, B), w') ∧ randM4 X v = .ok (T, v') ∧
      (IsUnit (mat4 T) → A = T ∧ mat4 T * mat4 B = 1 ∧ mat4 B * mat4 T = 1 ∧
        w'.m_index = v'.m_index ∧ w'.m_intermediateOffset = v'.m_intermediateOffset) ∧
      (¬ IsUnit (mat4 T) → A ≠ T) := by
  obtain ⟨⟨⟨A, B⟩, w'⟩, hg, hAB, -, -, -, w1, T, w2, hw1, hT, hd⟩ := genMatpairM4_draw env A0 B0 w
  obtain ⟨T', v1, v2, e1, e2, hv⟩ := randM4_rel _ X (w := w1) (w' := v) (by
    unfold seedOf; rw [hw1.1, hw1.2.1, hw1.2.2.1]; exact h.symm)
  obtain ⟨rfl, rfl⟩ := Prod.mk.inj (Except.ok.inj (hT.symm.trans e1))
  refine ⟨A, B, w', T, v2, hg, e2, ?_, ?_⟩
  · intro hu
    obtain ⟨hA, hw'⟩ := hd ((isUnit_iff_det _).1 hu)
    have hA' : A = T := hA
    have hw2 : w' = w2 := hw'
    subst hA' hw2
    exact ⟨rfl, hAB, mat_comm hAB, hv.1, hv.2⟩
  · rintro hu rfl
    exact hu ⟨⟨_, _, hAB, mat_comm hAB⟩, rfl⟩

/-- C42: with the clock standing still, `SetRandSeed(s + 1); randM4(&T)` shows in advance the matrix that
`SetRandSeed(s); genMatpairM4(&A, &B)` hands out, whenever `T` is invertible. -/
theorem C42_SetRandSeed_genMatpairM4 (env : Env) (A0 B0 X : M4) (w v : World) (s : BitVec 32)
    (h : v.clock v.now = w.clock (w.now + 1)) :
    ∃ A B w' T v', (do SetRandSeed s; genMatpairM4 env A0 B0) w = .ok ((A, B), w') ∧
      (do SetRandSeed (s + 1#32); randM4 X) v = .ok (T, v') ∧
      (IsUnit (mat4 T) → A = T ∧ mat4 T * mat4 B = 1 ∧ mat4 B * mat4 T = 1) := by
  rw [run_SetRandSeed, run_SetRandSeed]
  obtain ⟨A, B, w', T, v', h1, h2, h3, -⟩ := C42_genMatpairM4 env A0 B0 X { w with randseed := s }
    { v with randseed := s + 1#32 } (by simp only; rw [h])
  exact ⟨A, B, w', T, v', h1, h2, fun hu => ⟨(h3 hu).1, (h3 hu).2.1, (h3 hu).2.2.1⟩⟩

/-- C42: let `T` be the matrix that `randM8` draws from the seed value `genMatpairM8` uses (counter plus
one, second clock reading).  If `T` is invertible then `genMatpairM8` returns exactly `T` and its inverse,
and leaves the generator where `randM8` leaves it. If `T` is singular something else is returned. -/
theorem C42_genMatpairM8 (env : Env) (A0 B0 X : M8) (w v : World)
    (h : v.randseed ^^^ v.clock v.now = (w.randseed + 1#32) ^^^ w.clock (w.now + 1)) :
    ∃ A B w' T v', genMatpairM8 env A0 B0 w = .ok ((A, B), w') ∧ randM8 X v = .ok (T, v') ∧
      (IsUnit (mat8 T) → A = T ∧ mat8 T * mat8 B = 1 ∧ mat8 B * mat8 T = 1 ∧
        w'.m_index = v'.m_index ∧ w'.m_intermediateOffset = v'.m_intermediateOffset) ∧
      (¬ IsUnit (mat8 T) → A ≠ T) := by
  obtain ⟨⟨⟨A, B⟩, w'⟩, hg, hAB, -, w1, T, w2, hw1, hT, hd⟩ := genMatpairM8_draw env A0 B0 w
  obtain ⟨T', v1, v2, e1, e2, hv⟩ := randM8_rel _ X (w := w1) (w' := v) (by
    unfold seedOf; rw [hw1.1, hw1.2.1, hw1.2.2.1]; exact h.symm)
  obtain ⟨rfl, rfl⟩ := Prod.mk.inj (Except.ok.inj (hT.symm.trans e1))
  refine ⟨A, B, w', T, v2, hg, e2, ?_, ?_⟩
  · intro hu
    obtain ⟨hA, hw'⟩ := hd ((isUnit_iff_det _).1 hu)
    have hA' : A = T := hA
    have hw2 : w' = w2 := hw'
    subst hA' hw2
    exact ⟨rfl, hAB, mat_comm hAB, hv.1, hv.2⟩
  · rintro hu rfl
    exact hu ⟨⟨_, _, hAB, mat_comm hAB⟩, rfl⟩

/-- C42: with the clock standing still, `SetRandSeed(s + 1); randM8(&T)` shows in advance the matrix that
`SetRandSeed(s); genMatpairM8(&A, &B)` hands out, whenever `T` is invertible. -/
theorem C42_SetRandSeed_genMatpairM8 (env : Env) (A0 B0 X : M8) (w v : World) (s : BitVec 32)
    (h : v.clock v.now = w.clock (w.now + 1)) :
    ∃ A B w' T v', (do SetRandSeed s; genMatpairM8 env A0 B0) w = .ok ((A, B), w') ∧
      (do SetRandSeed (s + 1#32); randM8 X) v = .ok (T, v') ∧
      (IsUnit (mat8 T) → A = T ∧ mat8 T * mat8 B = 1 ∧ mat8 B * mat8 T = 1) := by
  rw [run_SetRandSeed, run_SetRandSeed]
  obtain ⟨A, B, w', T, v', h1, h2, h3, -⟩ := C42_genMatpairM8 env A0 B0 X { w with randseed := s }
    { v with randseed := s + 1#32 } (by simp only; rw [h])
  exact ⟨A, B, w', T, v', h1, h2, fun hu => ⟨(h3 hu).1, (h3 hu).2.1, (h3 hu).2.2.1⟩⟩

/-- C42: let `T` be the matrix that `randM16` draws from the seed value `genMatpairM16` uses (counter plus
one, second clock reading).  If `T` is invertible then `genMatpairM16` returns exactly `T` and its inverse,
and leaves the generator where `randM16` leaves it. If `T` is singular something else is returned. -/
theorem C42_genMatpairM16 (env : Env) (A0 B0 X : M16) (w v : World)
    (h : v.randseed ^^^ v.clock v.now = (w.randseed + 1#32) ^^^ w.clock (w.now + 1)) :
    ∃ A B w' T v', genMatpairM16 env A0 B0 w = .ok ((A, B), w') ∧ randM16 X v = .ok (T, v') ∧
      (IsUnit (mat16 T) → A = T ∧ mat16 T * mat16 B = 1 ∧ mat16 B * mat16 T = 1 ∧
        w'.m_index = v'.m_index ∧ w'.m_intermediateOffset = v'.m_intermediateOffset) ∧
      (¬ IsUnit (mat16 T) → A ≠ T) := by
  obtain ⟨⟨⟨A, B⟩, w'⟩, hg, hAB, -, w1, T, w2, hw1, hT, hd⟩ := genMatpairM16_draw env A0 B0 w
  obtain ⟨T', v1, v2, e1, e2, hv⟩ := randM16_rel _ X (w := w1) (w' := v) (by
    unfold seedOf; rw [hw1.1, hw1.2.1, hw1.2.2.1]; exact h.symm)
  obtain ⟨rfl, rfl⟩ := Prod.mk.inj (Except.ok.inj (hT.symm.trans e1))
  refine ⟨A, B, w', T, v2, hg, e2, ?_, ?_⟩
  · intro hu
    obtain ⟨hA, hw'⟩ := hd ((isUnit_iff_det _).1 hu)
    have hA' : A = T := hA
    have hw2 : w' = w2 := hw'
    subst hA' hw2
    exact ⟨rfl, hAB, mat_comm hAB, hv.1, hv.2⟩
  · rintro hu rfl
    exact hu ⟨⟨_, _, hAB, mat_comm hAB⟩, rfl⟩

/-- C42: with the clock standing still, `SetRandSeed(s + 1); randM16(&T)` shows in advance the matrix that
`SetRandSeed(s); genMatpairM16(&A, &B)` hands out, whenever `T` is invertible. -/
theorem C42_SetRandSeed_genMatpairM16 (env : Env) (A0 B0 X : M16) (w v : World) (s : BitVec 32)
    (h : v.clock v.now = w.clock (w.now + 1)) :
    ∃ A B w' T v', (do SetRandSeed s; genMatpairM16 env A0 B0) w = .ok ((A, B), w') ∧
      (do SetRandSeed (s + 1#32); randM16 X) v = .ok (T, v') ∧
      (IsUnit (mat16 T) → A = T ∧ mat16 T * mat16 B = 1 ∧ mat16 B * mat16 T = 1) := by
  rw [run_SetRandSeed, run_SetRandSeed]
  obtain ⟨A, B, w', T, v', h1, h2, h3, -⟩ := C42_genMatpairM16 env A0 B0 X { w with randseed := s }
    { v with randseed := s + 1#32 } (by simp only; rw [h])
  exact ⟨A, B, w', T, v', h1, h2, fun hu => ⟨(h3 hu).1, (h3 hu).2.1, (h3 hu).2.2.1⟩⟩

/-- C42: let `T` be the matrix that `randM32` draws from the seed value `genMatpairM32` uses (counter plus
one, second clock reading).  If `T` is invertible then `genMatpairM32` returns exactly `T` and its inverse,
and leaves the generator where `randM32` leaves it. If `T` is singular something else is returned. -/
theorem C42_genMatpairM32 (env : Env) (A0 B0 X : M32) (w v : World)
    (h : v.randseed ^^^ v.clock v.now = (w.randseed + 1#32) ^^^ w.clock (w.now + 1)) :
    ∃ A B w' T v', genMatpairM32 env A0 B0 w = .ok ((A, B), w') ∧ randM32 X v = .ok (T, v') ∧
      (IsUnit (mat32 T) → A = T ∧ mat32 T * mat32 B = 1 ∧ mat32 B * mat32 T = 1 ∧
        w'.m_index = v'.m_index ∧ w'.m_intermediateOffset = v'.m_intermediateOffset) ∧
      (¬ IsUnit (mat32 T) → A ≠ T) := by
  obtain ⟨⟨⟨A, B⟩, w'⟩, hg, hAB, -, w1, T, w2, hw1, hT, hd⟩ := genMatpairM32_draw env A0 B0 w
  obtain ⟨T', v1, v2, e1, e2, hv⟩ := randM32_rel _ X (w := w1) (w' := v) (by
    unfold seedOf; rw [hw1.1, hw1.2.1, hw1.2.2.1]; exact h.symm)
  obtain ⟨rfl, rfl⟩ := Prod.mk.inj (Except.ok.inj (hT.symm.trans e1))
  refine ⟨A, B, w', T, v2, hg, e2, ?_, ?_⟩
  · intro hu
    obtain ⟨hA, hw'⟩ := hd ((isUnit_iff_det _).1 hu)
    have hA' : A = T := hA
    have hw2 : w' = w2 := hw'
    subst hA' hw2
    exact ⟨rfl, hAB, mat_comm hAB, hv.1, hv.2⟩
  · rintro hu rfl
    exact hu ⟨⟨_, _, hAB, mat_comm hAB⟩, rfl⟩

/-- C42: with the clock standing still, `SetRandSeed(s + 1); randM32(&T)` shows in advance the matrix that
`SetRandSeed(s); genMatpairM32(&A, &B)` hands out, whenever `T` is invertible. -/
theorem C42_SetRandSeed_genMatpairM32 (env : Env) (A0 B0 X : M32) (w v : World) (s : BitVec 32)
    (h : v.clock v.now = w.clock (w.now + 1)) :
    ∃ A B w' T v', (do SetRandSeed s; genMatpairM32 env A0 B0) w = .ok ((A, B), w') ∧
      (do SetRandSeed (s + 1#32); randM32 X) v = .ok (T, v') ∧
      (IsUnit (mat32 T) → A = T ∧ mat32 T * mat32 B = 1 ∧ mat32 B * mat32 T = 1) := by
  rw [run_SetRandSeed, run_SetRandSeed]
  obtain ⟨A, B, w', T, v', h1, h2, h3, -⟩ := C42_genMatpairM32 env A0 B0 X { w with randseed := s }
    { v with randseed := s + 1#32 } (by simp only; rw [h])
  exact ⟨A, B, w', T, v', h1, h2, fun hu => ⟨(h3 hu).1, (h3 hu).2.1, (h3 hu).2.2.1⟩⟩

/-- C42: let `T` be the matrix that `randM64` draws from the seed value `genMatpairM64` uses (counter plus
one, second clock reading).  If `T` is invertible then `genMatpairM64` returns exactly `T` and its inverse,
and leaves the generator where `randM64` leaves it. If `T` is singular something else is returned. -/
theorem C42_genMatpairM64 (env : Env) (A0 B0 X : M64) (w v : World)
    (h : v.randseed ^^^ v.clock v.now = (w.randseed + 1#32) ^^^ w.clock (w.now + 1)) :
    ∃ A B w' T v', genMatpairM64 env A0 B0 w = .ok ((A, B), w') ∧ randM64 env X v = .ok (T, v') ∧
      (IsUnit (mat64 T) → A = T ∧ mat64 T * mat64 B = 1 ∧ mat64 B * mat64 T = 1 ∧
        w'.m_index = v'.m_index ∧ w'.m_intermediateOffset = v'.m_intermediateOffset) ∧
      (¬ IsUnit (mat64 T) → A ≠ T) := by
  obtain ⟨⟨⟨A, B⟩, w'⟩, hg, hAB, -, w1, T, w2, hw1, hT, hd⟩ := genMatpairM64_draw env A0 B0 w
  obtain ⟨T', v1, v2, e1, e2, hv⟩ := randM64_rel rfl _ X (w := w1) (w' := v) (by
    unfold seedOf; rw [hw1.1, hw1.2.1, hw1.2.2.1]; exact h.symm)
  obtain ⟨rfl, rfl⟩ := Prod.mk.inj (Except.ok.inj (hT.symm.trans e1))
  refine ⟨A, B, w', T, v2, hg, e2, ?_, ?_⟩
  · intro hu
    obtain ⟨hA, hw'⟩ := hd ((isUnit_iff_det _).1 hu)
    have hA' : A = T := hA
    have hw2 : w' = w2 := hw'
    subst hA' hw2
    exact ⟨rfl, hAB, mat_comm hAB, hv.1, hv.2⟩
  · rintro hu rfl
    exact hu ⟨⟨_, _, hAB, mat_comm hAB⟩, rfl⟩

/-- C42: with the clock standing still, `SetRandSeed(s + 1); randM64(&T)` shows in advance the matrix that
`SetRandSeed(s); genMatpairM64(&A, &B)` hands out, whenever `T` is invertible. -/
theorem C42_SetRandSeed_genMatpairM64 (env : Env) (A0 B0 X : M64) (w v : World) (s : BitVec 32)
    (h : v.clock v.now = w.clock (w.now + 1)) :
    ∃ A B w' T v', (do SetRandSeed s; genMatpairM64 env A0 B0) w = .ok ((A, B), w') ∧
      (do SetRandSeed (s + 1#32); randM64 env X) v = .ok (T, v') ∧
      (IsUnit (mat64 T) → A = T ∧ mat64 T * mat64 B = 1 ∧ mat64 B * mat64 T = 1) := by
  rw [run_SetRandSeed, run_SetRandSeed]
  obtain ⟨A, B, w', T, v', h1, h2, h3, -⟩ := C42_genMatpairM64 env A0 B0 X { w with randseed := s }
    { v with randseed := s + 1#32 } (by simp only; rw [h])
  exact ⟨A, B, w', T, v', h1, h2, fun hu => ⟨(h3 hu).1, (h3 hu).2.1, (h3 hu).2.2.1⟩⟩

/-- C42: let `T` be the matrix that `randM128` draws from the seed value `genMatpairM128` uses (counter plus
one, second clock reading).  If `T` is invertible then `genMatpairM128` returns exactly `T` and its inverse,
and leaves the generator where `randM128` leaves it. If `T` is singular something else is returned. -/
theorem C42_genMatpairM128 (env : Env) (A0 B0 X : M128) (w v : World)
    (h : v.randseed ^^^ v.clock v.now = (w.randseed + 1#32) ^^^ w.clock (w.now + 1)) :
    ∃ A B w' T v', genMatpairM128 env A0 B0 w = .ok ((A, B), w') ∧ randM128 env X v = .ok (T, v') ∧
      (IsUnit (mat128 T) → A = T ∧ mat128 T * mat128 B = 1 ∧ mat128 B * mat128 T = 1 ∧
        w'.m_index = v'.m_index ∧ w'.m_intermediateOffset = v'.m_intermediateOffset) ∧
      (¬ IsUnit (mat128 T) → A ≠ T) := by
  obtain ⟨⟨⟨A, B⟩, w'⟩, hg, hAB, -, w1, T, w2, hw1, hT, hd⟩ := genMatpairM128_draw env A0 B0 w
  obtain ⟨T', v1, v2, e1, e2, hv⟩ := randM128_rel rfl _ X (w := w1) (w' := v) (by
    unfold seedOf; rw [hw1.1, hw1.2.1, hw1.2.2.1]; exact h.symm)
  obtain ⟨rfl, rfl⟩ := Prod.mk.inj (Except.ok.inj (hT.symm.trans e1))
  refine ⟨A, B, w', T, v2, hg, e2, ?_, ?_⟩
  · intro hu
    obtain ⟨hA, hw'⟩ := hd ((isUnit_iff_det _).1 hu)
    have hA' : A = T := hA
    have hw2 : w' = w2 := hw'
    subst hA' hw2
    exact ⟨rfl, hAB, mat_comm hAB, hv.1, hv.2⟩
  · rintro hu rfl
    exact hu ⟨⟨_, _, hAB, mat_comm hAB⟩, rfl⟩

/-- C42: with the clock standing still, `SetRandSeed(s + 1); randM128(&T)` shows in advance the matrix that
`SetRandSeed(s); genMatpairM128(&A, &B)` hands out, whenever `T` is invertible. -/
theorem C42_SetRandSeed_genMatpairM128 (env : Env) (A0 B0 X : M128) (w v : World) (s : BitVec 32)
    (h : v.clock v.now = w.clock (w.now + 1)) :
    ∃ A B w' T v', (do SetRandSeed s; genMatpairM128 env A0 B0) w = .ok ((A, B), w') ∧
      (do SetRandSeed (s + 1#32); randM128 env X) v = .ok (T, v') ∧
      (IsUnit (mat128 T) → A = T ∧ mat128 T * mat128 B = 1 ∧ mat128 B * mat128 T = 1) := by
  rw [run_SetRandSeed, run_SetRandSeed]
  obtain ⟨A, B, w', T, v', h1, h2, h3, -⟩ := C42_genMatpairM128 env A0 B0 X { w with randseed := s }
    { v with randseed := s + 1#32 } (by simp only; rw [h])
  exact ⟨A, B, w', T, v', h1, h2, fun hu => ⟨(h3 hu).1, (h3 hu).2.1, (h3 hu).2.2.1⟩⟩

/-- C42: let `T` be the matrix that `randM256` draws from the seed value `genMatpairM256` uses (counter plus
one, second clock reading).  If `T` is invertible then `genMatpairM256` returns exactly `T` and its inverse,
and leaves the generator where `randM256` leaves it. If `T` is singular something else is returned. -/
theorem C42_genMatpairM256 (env : Env) (A0 B0 X : M256) (w v : World)
    (h : v.randseed ^^^ v.clock v.now = (w.randseed + 1#32) ^^^ w.clock (w.now + 1)) :
    ∃ A B w' T v', genMatpairM256 env A0 B0 w = .ok ((A, B), w') ∧ randM256 env X v = .ok (T, v') ∧
      (IsUnit (mat256 T) → A = T ∧ mat256 T * mat256 B = 1 ∧ mat256 B * mat256 T = 1 ∧
        w'.m_index = v'.m_index ∧ w'.m_intermediateOffset = v'.m_intermediateOffset) ∧
      (¬ IsUnit (mat256 T) → A ≠ T) := by
  obtain ⟨⟨⟨A, B⟩, w'⟩, hg, hAB, -, w1, T, w2, hw1, hT, hd⟩ := genMatpairM256_draw env A0 B0 w
  obtain ⟨T', v1, v2, e1, e2, hv⟩ := randM256_rel rfl _ X (w := w1) (w' := v) (by
    unfold seedOf; rw [hw1.1, hw1.2.1, hw1.2.2.1]; exact h.symm)
  obtain ⟨rfl, rfl⟩ := Prod.mk.inj (Except.ok.inj (hT.symm.trans e1))
  refine ⟨A, B, w', T, v2, hg, e2, ?_, ?_⟩
  · intro hu
    obtain ⟨hA, hw'⟩ := hd ((isUnit_iff_det _).1 hu)
    have hA' : A = T := hA
    have hw2 : w' = w2 := hw'
    subst hA' hw2
    exact ⟨rfl, hAB, mat_comm hAB, hv.1, hv.2⟩
  · rintro hu rfl
    exact hu ⟨⟨_, _, hAB, mat_comm hAB⟩, rfl⟩

/-- C42: with the clock standing still, `SetRandSeed(s + 1); randM256(&T)` shows in advance the matrix that
`SetRandSeed(s); genMatpairM256(&A, &B)` hands out, whenever `T` is invertible. -/
theorem C42_SetRandSeed_genMatpairM256 (env : Env) (A0 B0 X : M256) (w v : World) (s : BitVec 32)
    (h : v.clock v.now = w.clock (w.now + 1)) :
    ∃ A B w' T v', (do SetRandSeed s; genMatpairM256 env A0 B0) w = .ok ((A, B), w') ∧
      (do SetRandSeed (s + 1#32); randM256 env X) v = .ok (T, v') ∧
      (IsUnit (mat256 T) → A = T ∧ mat256 T * mat256 B = 1 ∧ mat256 B * mat256 T = 1) := by
  rw [run_SetRandSeed, run_SetRandSeed]
  obtain ⟨A, B, w', T, v', h1, h2, h3, -⟩ := C42_genMatpairM256 env A0 B0 X { w with randseed := s }
    { v with randseed := s + 1#32 } (by simp only; rw [h])
  exact ⟨A, B, w', T, v', h1, h2, fun hu => ⟨(h3 hu).1, (h3 hu).2.1, (h3 hu).2.2.1⟩⟩

/-- A state in which the next draws of `randM4` and `randM8` are invertible … -/
def exWorld6 : World := ⟨33, 1, 2, fun _ => BitVec.ofNat 32 1700000000, 4, []⟩
/-- … and the state one seed before, in which `genMatpair` uses the same draws. -/
def exWorld7 : World := { exWorld6 with randseed := 32 }

example : exWorld6.randseed ^^^ exWorld6.clock exWorld6.now =
    (exWorld7.randseed + 1#32) ^^^ exWorld7.clock (exWorld7.now + 1) := by decide +kernel
example : (((do let T ← randM4 exB4; liftC (isinvertM4 T) : CM Int) exWorld6).toOption.map (·.1)) = some 1 := by
  decide +kernel
example : (((do let T ← randM8 exB8; liftC (isinvertM8 T) : CM Int) exWorld6).toOption.map (·.1)) = some 1 := by
  decide +kernel

end WB
