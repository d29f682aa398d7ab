import Verif.Prop.C29
import Verif.Proof.Affine

/-!
# C29, continued — affine pairs, and the same seed set twice (written by tools/gen_props9.py)
-/
namespace WB
open Matrix

theorem run_SetRandSeed {α : Type} (s : BitVec 32) (x : CM α) (w : World) :
    (do SetRandSeed s; x : CM α) w = x { w with randseed := s } := rfl

theorem seedOf_gen {w w' v v' : World} (g : GenWorld w v) (g' : GenWorld w' v')
    (h : (w.randseed + 2#32) ^^^ w.clock (w.now + 2) = (w'.randseed + 2#32) ^^^ w'.clock (w'.now + 2)) :
    seedOf v = seedOf v' := by
  unfold seedOf
  rw [g.1, g.2.1, g.2.2.1, g'.1, g'.2.1, g'.2.2.1]
  exact h

/-- C29: after `SetRandSeed` with the same value, with the same clock reading, `randM4` gives the same result. -/
theorem C29_SetRandSeed_randM4 (X X' : M4) (w w' : World) (s : BitVec 32)
    (h : w.clock w.now = w'.clock w'.now) :
    ∃ r v v', (do SetRandSeed s; randM4 X) w = .ok (r, v) ∧ (do SetRandSeed s; randM4 X') w' = .ok (r, v') := by
  rw [run_SetRandSeed, run_SetRandSeed]
  obtain ⟨r, v, v', h1, h2, -⟩ := C29_randM4 X X' { w with randseed := s } { w' with randseed := s }
    (by simp only; rw [h])
  exact ⟨r, v, v', h1, h2⟩

/-- C29: after `SetRandSeed` with the same value, with the same clock reading, `randV4` gives the same result. -/
theorem C29_SetRandSeed_randV4 (X X' : V4) (w w' : World) (s : BitVec 32)
    (h : w.clock w.now = w'.clock w'.now) :
    ∃ r v v', (do SetRandSeed s; randV4 X) w = .ok (r, v) ∧ (do SetRandSeed s; randV4 X') w' = .ok (r, v') := by
  rw [run_SetRandSeed, run_SetRandSeed]
  obtain ⟨r, v, v', h1, h2, -⟩ := C29_randV4 X X' { w with randseed := s } { w' with randseed := s }
    (by simp only; rw [h])
  exact ⟨r, v, v', h1, h2⟩

/-- C29: after `SetRandSeed` with the same value, with the same second clock reading, `genMatpairM4` gives the same pair. -/
theorem C29_SetRandSeed_genMatpairM4 (env env' : Env) (A B A' B' : M4) (w w' : World) (s : BitVec 32)
    (h : w.clock (w.now + 1) = w'.clock (w'.now + 1)) :
    ∃ r v v', (do SetRandSeed s; genMatpairM4 env A B) w = .ok (r, v) ∧
      (do SetRandSeed s; genMatpairM4 env' A' B') w' = .ok (r, v') := by
  rw [run_SetRandSeed, run_SetRandSeed]
  obtain ⟨r, v, v', h1, h2, -⟩ := C29_genMatpairM4 env env' A B A' B' { w with randseed := s } { w' with randseed := s }
    (by simp only; rw [h])
  exact ⟨r, v, v', h1, h2⟩

/-- C29: `genaffinepairM4` depends only on the seed xor clock of its second and of its third seeding. -/
theorem C29_genaffinepairM4 (env env' : Env) (f0 g0 f0' g0' : Aff4) (w w' : World)
    (h1 : (w.randseed + 1#32) ^^^ w.clock (w.now + 1) = (w'.randseed + 1#32) ^^^ w'.clock (w'.now + 1))
    (h2 : (w.randseed + 2#32) ^^^ w.clock (w.now + 2) = (w'.randseed + 2#32) ^^^ w'.clock (w'.now + 2)) :
    ∃ r v v', genaffinepairM4 env f0 g0 w = .ok (r, v) ∧ genaffinepairM4 env' f0' g0' w' = .ok (r, v') ∧
      v.m_index = v'.m_index ∧ v.m_intermediateOffset = v'.m_intermediateOffset := by
  obtain ⟨⟨A, B⟩, v, v', e1, e2, i1, i2⟩ := C29_genMatpairM4 env env' f0.Mat g0.Mat f0'.Mat g0'.Mat w w' h1
  have gw : GenWorld w v := by
    obtain ⟨⟨p, u⟩, hp, k⟩ := genMatpairM4_ok env f0.Mat g0.Mat w
    rw [hp] at e1
    cases e1
    exact k.2.2.2
  have gw' : GenWorld w' v' := by
    obtain ⟨⟨p, u⟩, hp, k⟩ := genMatpairM4_ok env' f0'.Mat g0'.Mat w'
    rw [hp] at e2
    cases e2
    exact k.2.2.2
  obtain ⟨V, u, u', q1, q2, q3⟩ := randV4_rel f0.Vec f0'.Vec (seedOf_gen gw gw' h2)
  obtain ⟨y, m1, hy, cy⟩ := MatMulVecM4_ok env B V g0.Vec
  obtain ⟨y', m2, hy', cy'⟩ := MatMulVecM4_ok env' B V g0'.Vec
  obtain rfl : y = y' := vec4_inj cy cy' (hy.trans hy'.symm)
  refine ⟨(⟨A, V⟩, ⟨B, y⟩), u, u', ?_, ?_, q3.1, q3.2⟩
  · unfold genaffinepairM4
    rw [CM_bind_run e1]
    simp only
    rw [CM_bind_run q1, CM_bind_run (liftC_run _ m1)]
    rfl
  · unfold genaffinepairM4
    rw [CM_bind_run e2]
    simp only
    rw [CM_bind_run q2, CM_bind_run (liftC_run _ m2)]
    rfl

/-- C29: after `SetRandSeed` with the same value, with the same clock readings, `genaffinepairM4` gives the same pair. -/
theorem C29_SetRandSeed_genaffinepairM4 (env env' : Env) (f0 g0 f0' g0' : Aff4) (w w' : World) (s : BitVec 32)
    (h1 : w.clock (w.now + 1) = w'.clock (w'.now + 1)) (h2 : w.clock (w.now + 2) = w'.clock (w'.now + 2)) :
    ∃ r v v', (do SetRandSeed s; genaffinepairM4 env f0 g0) w = .ok (r, v) ∧
      (do SetRandSeed s; genaffinepairM4 env' f0' g0') w' = .ok (r, v') := by
  rw [run_SetRandSeed, run_SetRandSeed]
  obtain ⟨r, v, v', h1, h2, -⟩ := C29_genaffinepairM4 env env' f0 g0 f0' g0' { w with randseed := s }
    { w' with randseed := s } (by simp only; rw [h1]) (by simp only; rw [h2])
  exact ⟨r, v, v', h1, h2⟩

/-- C29: after `SetRandSeed` with the same value, with the same clock reading, `randM8` gives the same result. -/
theorem C29_SetRandSeed_randM8 (X X' : M8) (w w' : World) (s : BitVec 32)
    (h : w.clock w.now = w'.clock w'.now) :
    ∃ r v v', (do SetRandSeed s; randM8 X) w = .ok (r, v) ∧ (do SetRandSeed s; randM8 X') w' = .ok (r, v') := by
  rw [run_SetRandSeed, run_SetRandSeed]
  obtain ⟨r, v, v', h1, h2, -⟩ := C29_randM8 X X' { w with randseed := s } { w' with randseed := s }
    (by simp only; rw [h])
  exact ⟨r, v, v', h1, h2⟩

/-- C29: after `SetRandSeed` with the same value, with the same clock reading, `randV8` gives the same result. -/
theorem C29_SetRandSeed_randV8 (X X' : V8) (w w' : World) (s : BitVec 32)
    (h : w.clock w.now = w'.clock w'.now) :
    ∃ r v v', (do SetRandSeed s; randV8 X) w = .ok (r, v) ∧ (do SetRandSeed s; randV8 X') w' = .ok (r, v') := by
  rw [run_SetRandSeed, run_SetRandSeed]
  obtain ⟨r, v, v', h1, h2, -⟩ := C29_randV8 X X' { w with randseed := s } { w' with randseed := s }
    (by simp only; rw [h])
  exact ⟨r, v, v', h1, h2⟩

/-- C29: `genaffinepairM8` depends only on the seed xor clock of its second and of its third seeding. -/
theorem C29_genaffinepairM8 (env env' : Env) (f0 g0 f0' g0' : Aff8) (w w' : World)
    (h1 : (w.randseed + 1#32) ^^^ w.clock (w.now + 1) = (w'.randseed + 1#32) ^^^ w'.clock (w'.now + 1))
    (h2 : (w.randseed + 2#32) ^^^ w.clock (w.now + 2) = (w'.randseed + 2#32) ^^^ w'.clock (w'.now + 2)) :
    ∃ r v v', genaffinepairM8 env f0 g0 w = .ok (r, v) ∧ genaffinepairM8 env' f0' g0' w' = .ok (r, v') ∧
      v.m_index = v'.m_index ∧ v.m_intermediateOffset = v'.m_intermediateOffset := by
  obtain ⟨⟨A, B⟩, v, v', e1, e2, i1, i2⟩ := C29_genMatpairM8 env env' f0.Mat g0.Mat f0'.Mat g0'.Mat w w' h1
  have gw : GenWorld w v := by
    obtain ⟨⟨p, u⟩, hp, k⟩ := genMatpairM8_ok env f0.Mat g0.Mat w
    rw [hp] at e1
    cases e1
    exact k.2
  have gw' : GenWorld w' v' := by
    obtain ⟨⟨p, u⟩, hp, k⟩ := genMatpairM8_ok env' f0'.Mat g0'.Mat w'
    rw [hp] at e2
    cases e2
    exact k.2
  obtain ⟨V, u, u', q1, q2, q3⟩ := randV8_rel f0.Vec f0'.Vec (seedOf_gen gw gw' h2)
  obtain ⟨y, m1, m2⟩ := ident_congr (fun _ _ => vec8_inj) (MatMulVecM8_ok env B V g0.Vec) (MatMulVecM8_ok env' B V g0'.Vec)
  refine ⟨(⟨A, V⟩, ⟨B, y⟩), u, u', ?_, ?_, q3.1, q3.2⟩
  · unfold genaffinepairM8
    rw [CM_bind_run e1]
    simp only
    rw [CM_bind_run q1, CM_bind_run (liftC_run _ m1)]
    rfl
  · unfold genaffinepairM8
    rw [CM_bind_run e2]
    simp only
    rw [CM_bind_run q2, CM_bind_run (liftC_run _ m2)]
    rfl

/-- C29: after `SetRandSeed` with the same value, with the same clock readings, `genaffinepairM8` gives the same pair. -/
theorem C29_SetRandSeed_genaffinepairM8 (env env' : Env) (f0 g0 f0' g0' : Aff8) (w w' : World) (s : BitVec 32)
    (h1 : w.clock (w.now + 1) = w'.clock (w'.now + 1)) (h2 : w.clock (w.now + 2) = w'.clock (w'.now + 2)) :
    ∃ r v v', (do SetRandSeed s; genaffinepairM8 env f0 g0) w = .ok (r, v) ∧
      (do SetRandSeed s; genaffinepairM8 env' f0' g0') w' = .ok (r, v') := by
  rw [run_SetRandSeed, run_SetRandSeed]
  obtain ⟨r, v, v', h1, h2, -⟩ := C29_genaffinepairM8 env env' f0 g0 f0' g0' { w with randseed := s }
    { w' with randseed := s } (by simp only; rw [h1]) (by simp only; rw [h2])
  exact ⟨r, v, v', h1, h2⟩

/-- C29: after `SetRandSeed` with the same value, with the same clock reading, `randM16` gives the same result. -/
theorem C29_SetRandSeed_randM16 (X X' : M16) (w w' : World) (s : BitVec 32)
    (h : w.clock w.now = w'.clock w'.now) :
    ∃ r v v', (do SetRandSeed s; randM16 X) w = .ok (r, v) ∧ (do SetRandSeed s; randM16 X') w' = .ok (r, v') := by
  rw [run_SetRandSeed, run_SetRandSeed]
  obtain ⟨r, v, v', h1, h2, -⟩ := C29_randM16 X X' { w with randseed := s } { w' with randseed := s }
    (by simp only; rw [h])
  exact ⟨r, v, v', h1, h2⟩

/-- C29: after `SetRandSeed` with the same value, with the same clock reading, `randV16` gives the same result. -/
theorem C29_SetRandSeed_randV16 (X X' : V16) (w w' : World) (s : BitVec 32)
    (h : w.clock w.now = w'.clock w'.now) :
    ∃ r v v', (do SetRandSeed s; randV16 X) w = .ok (r, v) ∧ (do SetRandSeed s; randV16 X') w' = .ok (r, v') := by
  rw [run_SetRandSeed, run_SetRandSeed]
  obtain ⟨r, v, v', h1, h2, -⟩ := C29_randV16 X X' { w with randseed := s } { w' with randseed := s }
    (by simp only; rw [h])
  exact ⟨r, v, v', h1, h2⟩

/-- C29: after `SetRandSeed` with the same value, with the same second clock reading, `genMatpairM16` gives the same pair. -/
theorem C29_SetRandSeed_genMatpairM16 (env env' : Env) (A B A' B' : M16) (w w' : World) (s : BitVec 32)
    (h : w.clock (w.now + 1) = w'.clock (w'.now + 1)) :
    ∃ r v v', (do SetRandSeed s; genMatpairM16 env A B) w = .ok (r, v) ∧
      (do SetRandSeed s; genMatpairM16 env' A' B') w' = .ok (r, v') := by
  rw [run_SetRandSeed, run_SetRandSeed]
  obtain ⟨r, v, v', h1, h2, -⟩ := C29_genMatpairM16 env env' A B A' B' { w with randseed := s } { w' with randseed := s }
    (by simp only; rw [h])
  exact ⟨r, v, v', h1, h2⟩

/-- C29: `genaffinepairM16` depends only on the seed xor clock of its second and of its third seeding. -/
theorem C29_genaffinepairM16 (env env' : Env) (f0 g0 f0' g0' : Aff16) (w w' : World)
    (h1 : (w.randseed + 1#32) ^^^ w.clock (w.now + 1) = (w'.randseed + 1#32) ^^^ w'.clock (w'.now + 1))
    (h2 : (w.randseed + 2#32) ^^^ w.clock (w.now + 2) = (w'.randseed + 2#32) ^^^ w'.clock (w'.now + 2)) :
    ∃ r v v', genaffinepairM16 env f0 g0 w = .ok (r, v) ∧ genaffinepairM16 env' f0' g0' w' = .ok (r, v') ∧
      v.m_index = v'.m_index ∧ v.m_intermediateOffset = v'.m_intermediateOffset := by
  obtain ⟨⟨A, B⟩, v, v', e1, e2, i1, i2⟩ := C29_genMatpairM16 env env' f0.Mat g0.Mat f0'.Mat g0'.Mat w w' h1
  have gw : GenWorld w v := by
    obtain ⟨⟨p, u⟩, hp, k⟩ := genMatpairM16_ok env f0.Mat g0.Mat w
    rw [hp] at e1
    cases e1
    exact k.2
  have gw' : GenWorld w' v' := by
    obtain ⟨⟨p, u⟩, hp, k⟩ := genMatpairM16_ok env' f0'.Mat g0'.Mat w'
    rw [hp] at e2
    cases e2
    exact k.2
  obtain ⟨V, u, u', q1, q2, q3⟩ := randV16_rel f0.Vec f0'.Vec (seedOf_gen gw gw' h2)
  obtain ⟨y, m1, m2⟩ := ident_congr (fun _ _ => vec16_inj) (MatMulVecM16_ok env B V g0.Vec) (MatMulVecM16_ok env' B V g0'.Vec)
  refine ⟨(⟨A, V⟩, ⟨B, y⟩), u, u', ?_, ?_, q3.1, q3.2⟩
  · unfold genaffinepairM16
    rw [CM_bind_run e1]
    simp only
    rw [CM_bind_run q1, CM_bind_run (liftC_run _ m1)]
    rfl
  · unfold genaffinepairM16
    rw [CM_bind_run e2]
    simp only
    rw [CM_bind_run q2, CM_bind_run (liftC_run _ m2)]
    rfl

/-- C29: after `SetRandSeed` with the same value, with the same clock readings, `genaffinepairM16` gives the same pair. -/
theorem C29_SetRandSeed_genaffinepairM16 (env env' : Env) (f0 g0 f0' g0' : Aff16) (w w' : World) (s : BitVec 32)
    (h1 : w.clock (w.now + 1) = w'.clock (w'.now + 1)) (h2 : w.clock (w.now + 2) = w'.clock (w'.now + 2)) :
    ∃ r v v', (do SetRandSeed s; genaffinepairM16 env f0 g0) w = .ok (r, v) ∧
      (do SetRandSeed s; genaffinepairM16 env' f0' g0') w' = .ok (r, v') := by
  rw [run_SetRandSeed, run_SetRandSeed]
  obtain ⟨r, v, v', h1, h2, -⟩ := C29_genaffinepairM16 env env' f0 g0 f0' g0' { w with randseed := s }
    { w' with randseed := s } (by simp only; rw [h1]) (by simp only; rw [h2])
  exact ⟨r, v, v', h1, h2⟩

/-- C29: after `SetRandSeed` with the same value, with the same clock reading, `randM32` gives the same result. -/
theorem C29_SetRandSeed_randM32 (X X' : M32) (w w' : World) (s : BitVec 32)
    (h : w.clock w.now = w'.clock w'.now) :
    ∃ r v v', (do SetRandSeed s; randM32 X) w = .ok (r, v) ∧ (do SetRandSeed s; randM32 X') w' = .ok (r, v') := by
  rw [run_SetRandSeed, run_SetRandSeed]
  obtain ⟨r, v, v', h1, h2, -⟩ := C29_randM32 X X' { w with randseed := s } { w' with randseed := s }
    (by simp only; rw [h])
  exact ⟨r, v, v', h1, h2⟩

/-- C29: after `SetRandSeed` with the same value, with the same clock reading, `randV32` gives the same result. -/
theorem C29_SetRandSeed_randV32 (X X' : V32) (w w' : World) (s : BitVec 32)
    (h : w.clock w.now = w'.clock w'.now) :
    ∃ r v v', (do SetRandSeed s; randV32 X) w = .ok (r, v) ∧ (do SetRandSeed s; randV32 X') w' = .ok (r, v') := by
  rw [run_SetRandSeed, run_SetRandSeed]
  obtain ⟨r, v, v', h1, h2, -⟩ := C29_randV32 X X' { w with randseed := s } { w' with randseed := s }
    (by simp only; rw [h])
  exact ⟨r, v, v', h1, h2⟩

/-- C29: after `SetRandSeed` with the same value, with the same second clock reading, `genMatpairM32` gives the same pair. -/
theorem C29_SetRandSeed_genMatpairM32 (env env' : Env) (A B A' B' : M32) (w w' : World) (s : BitVec 32)
    (h : w.clock (w.now + 1) = w'.clock (w'.now + 1)) :
    ∃ r v v', (do SetRandSeed s; genMatpairM32 env A B) w = .ok (r, v) ∧
      (do SetRandSeed s; genMatpairM32 env' A' B') w' = .ok (r, v') := by
  rw [run_SetRandSeed, run_SetRandSeed]
  obtain ⟨r, v, v', h1, h2, -⟩ := C29_genMatpairM32 env env' A B A' B' { w with randseed := s } { w' with randseed := s }
    (by simp only; rw [h])
  exact ⟨r, v, v', h1, h2⟩

/-- C29: `genaffinepairM32` depends only on the seed xor clock of its second and of its third seeding. -/
theorem C29_genaffinepairM32 (env env' : Env) (f0 g0 f0' g0' : Aff32) (w w' : World)
    (h1 : (w.randseed + 1#32) ^^^ w.clock (w.now + 1) = (w'.randseed + 1#32) ^^^ w'.clock (w'.now + 1))
    (h2 : (w.randseed + 2#32) ^^^ w.clock (w.now + 2) = (w'.randseed + 2#32) ^^^ w'.clock (w'.now + 2)) :
    ∃ r v v', genaffinepairM32 env f0 g0 w = .ok (r, v) ∧ genaffinepairM32 env' f0' g0' w' = .ok (r, v') ∧
      v.m_index = v'.m_index ∧ v.m_intermediateOffset = v'.m_intermediateOffset := by
  obtain ⟨⟨A, B⟩, v, v', e1, e2, i1, i2⟩ := C29_genMatpairM32 env env' f0.Mat g0.Mat f0'.Mat g0'.Mat w w' h1
  have gw : GenWorld w v := by
    obtain ⟨⟨p, u⟩, hp, k⟩ := genMatpairM32_ok env f0.Mat g0.Mat w
    rw [hp] at e1
    cases e1
    exact k.2
  have gw' : GenWorld w' v' := by
    obtain ⟨⟨p, u⟩, hp, k⟩ := genMatpairM32_ok env' f0'.Mat g0'.Mat w'
    rw [hp] at e2
    cases e2
    exact k.2
  obtain ⟨V, u, u', q1, q2, q3⟩ := randV32_rel f0.Vec f0'.Vec (seedOf_gen gw gw' h2)
  obtain ⟨y, m1, m2⟩ := ident_congr (fun _ _ => vec32_inj) (MatMulVecM32_ok env B V g0.Vec) (MatMulVecM32_ok env' B V g0'.Vec)
  refine ⟨(⟨A, V⟩, ⟨B, y⟩), u, u', ?_, ?_, q3.1, q3.2⟩
  · unfold genaffinepairM32
    rw [CM_bind_run e1]
    simp only
    rw [CM_bind_run q1, CM_bind_run (liftC_run _ m1)]
    rfl
  · unfold genaffinepairM32
    rw [CM_bind_run e2]
    simp only
    rw [CM_bind_run q2, CM_bind_run (liftC_run _ m2)]
    rfl

/-- C29: after `SetRandSeed` with the same value, with the same clock readings, `genaffinepairM32` gives the same pair. -/
theorem C29_SetRandSeed_genaffinepairM32 (env env' : Env) (f0 g0 f0' g0' : Aff32) (w w' : World) (s : BitVec 32)
    (h1 : w.clock (w.now + 1) = w'.clock (w'.now + 1)) (h2 : w.clock (w.now + 2) = w'.clock (w'.now + 2)) :
    ∃ r v v', (do SetRandSeed s; genaffinepairM32 env f0 g0) w = .ok (r, v) ∧
      (do SetRandSeed s; genaffinepairM32 env' f0' g0') w' = .ok (r, v') := by
  rw [run_SetRandSeed, run_SetRandSeed]
  obtain ⟨r, v, v', h1, h2, -⟩ := C29_genaffinepairM32 env env' f0 g0 f0' g0' { w with randseed := s }
    { w' with randseed := s } (by simp only; rw [h1]) (by simp only; rw [h2])
  exact ⟨r, v, v', h1, h2⟩

/-- C29: after `SetRandSeed` with the same value, with the same clock reading, `randM64` gives the same result. -/
theorem C29_SetRandSeed_randM64 (env env' : Env) (he : env.endian = env'.endian) (X X' : M64) (w w' : World) (s : BitVec 32)
    (h : w.clock w.now = w'.clock w'.now) :
    ∃ r v v', (do SetRandSeed s; randM64 env X) w = .ok (r, v) ∧ (do SetRandSeed s; randM64 env' X') w' = .ok (r, v') := by
  rw [run_SetRandSeed, run_SetRandSeed]
  obtain ⟨r, v, v', h1, h2, -⟩ := C29_randM64 env env' he X X' { w with randseed := s } { w' with randseed := s }
    (by simp only; rw [h])
  exact ⟨r, v, v', h1, h2⟩

/-- C29: after `SetRandSeed` with the same value, with the same second clock reading, `genMatpairM64` gives the same pair. -/
theorem C29_SetRandSeed_genMatpairM64 (env env' : Env) (he : env.endian = env'.endian) (A B A' B' : M64) (w w' : World) (s : BitVec 32)
    (h : w.clock (w.now + 1) = w'.clock (w'.now + 1)) :
    ∃ r v v', (do SetRandSeed s; genMatpairM64 env A B) w = .ok (r, v) ∧
      (do SetRandSeed s; genMatpairM64 env' A' B') w' = .ok (r, v') := by
  rw [run_SetRandSeed, run_SetRandSeed]
  obtain ⟨r, v, v', h1, h2, -⟩ := C29_genMatpairM64 env env' he A B A' B' { w with randseed := s } { w' with randseed := s }
    (by simp only; rw [h])
  exact ⟨r, v, v', h1, h2⟩

/-- C29: `genaffinepairM64` depends only on the seed xor clock of its second seeding (`randV64` does not seed). -/
theorem C29_genaffinepairM64 (env env' : Env) (he : env.endian = env'.endian) (f0 g0 f0' g0' : Aff64) (w w' : World)
    (h1 : (w.randseed + 1#32) ^^^ w.clock (w.now + 1) = (w'.randseed + 1#32) ^^^ w'.clock (w'.now + 1)) :
    ∃ r v v', genaffinepairM64 env f0 g0 w = .ok (r, v) ∧ genaffinepairM64 env' f0' g0' w' = .ok (r, v') ∧
      v.m_index = v'.m_index ∧ v.m_intermediateOffset = v'.m_intermediateOffset := by
  obtain ⟨⟨A, B⟩, v, v', e1, e2, i1, i2⟩ := C29_genMatpairM64 env env' he f0.Mat g0.Mat f0'.Mat g0'.Mat w w' h1
  have gw : GenWorld w v := by
    obtain ⟨⟨p, u⟩, hp, k⟩ := genMatpairM64_ok env f0.Mat g0.Mat w
    rw [hp] at e1
    cases e1
    exact k.2
  have gw' : GenWorld w' v' := by
    obtain ⟨⟨p, u⟩, hp, k⟩ := genMatpairM64_ok env' f0'.Mat g0'.Mat w'
    rw [hp] at e2
    cases e2
    exact k.2
  obtain ⟨V, u, u', q1, q2, q3⟩ := randV64_rel he f0.Vec f0'.Vec (w := v) (w' := v') ⟨i1, i2⟩
  obtain ⟨y, m1, m2⟩ := ident_congr (fun _ _ => vec64_inj) (MatMulVecM64_ok env B V g0.Vec) (MatMulVecM64_ok env' B V g0'.Vec)
  refine ⟨(⟨A, V⟩, ⟨B, y⟩), u, u', ?_, ?_, q3.1, q3.2⟩
  · unfold genaffinepairM64
    rw [CM_bind_run e1]
    simp only
    rw [CM_bind_run q1, CM_bind_run (liftC_run _ m1)]
    rfl
  · unfold genaffinepairM64
    rw [CM_bind_run e2]
    simp only
    rw [CM_bind_run q2, CM_bind_run (liftC_run _ m2)]
    rfl

/-- C29: after `SetRandSeed` with the same value, with the same clock readings, `genaffinepairM64` gives the same pair. -/
theorem C29_SetRandSeed_genaffinepairM64 (env env' : Env) (he : env.endian = env'.endian) (f0 g0 f0' g0' : Aff64) (w w' : World) (s : BitVec 32)
    (h1 : w.clock (w.now + 1) = w'.clock (w'.now + 1)) :
    ∃ r v v', (do SetRandSeed s; genaffinepairM64 env f0 g0) w = .ok (r, v) ∧
      (do SetRandSeed s; genaffinepairM64 env' f0' g0') w' = .ok (r, v') := by
  rw [run_SetRandSeed, run_SetRandSeed]
  obtain ⟨r, v, v', h1, h2, -⟩ := C29_genaffinepairM64 env env' he f0 g0 f0' g0' { w with randseed := s }
    { w' with randseed := s } (by simp only; rw [h1])
  exact ⟨r, v, v', h1, h2⟩

/-- C29: after `SetRandSeed` with the same value, with the same clock reading, `randM128` gives the same result. -/
theorem C29_SetRandSeed_randM128 (env env' : Env) (he : env.endian = env'.endian) (X X' : M128) (w w' : World) (s : BitVec 32)
    (h : w.clock w.now = w'.clock w'.now) :
    ∃ r v v', (do SetRandSeed s; randM128 env X) w = .ok (r, v) ∧ (do SetRandSeed s; randM128 env' X') w' = .ok (r, v') := by
  rw [run_SetRandSeed, run_SetRandSeed]
  obtain ⟨r, v, v', h1, h2, -⟩ := C29_randM128 env env' he X X' { w with randseed := s } { w' with randseed := s }
    (by simp only; rw [h])
  exact ⟨r, v, v', h1, h2⟩

/-- C29: after `SetRandSeed` with the same value, with the same clock reading, `randV128` gives the same result. -/
theorem C29_SetRandSeed_randV128 (env env' : Env) (he : env.endian = env'.endian) (X X' : V128) (w w' : World) (s : BitVec 32)
    (h : w.clock w.now = w'.clock w'.now) :
    ∃ r v v', (do SetRandSeed s; randV128 env X) w = .ok (r, v) ∧ (do SetRandSeed s; randV128 env' X') w' = .ok (r, v') := by
  rw [run_SetRandSeed, run_SetRandSeed]
  obtain ⟨r, v, v', h1, h2, -⟩ := C29_randV128 env env' he X X' { w with randseed := s } { w' with randseed := s }
    (by simp only; rw [h])
  exact ⟨r, v, v', h1, h2⟩

/-- C29: after `SetRandSeed` with the same value, with the same second clock reading, `genMatpairM128` gives the same pair. -/
theorem C29_SetRandSeed_genMatpairM128 (env env' : Env) (he : env.endian = env'.endian) (A B A' B' : M128) (w w' : World) (s : BitVec 32)
    (h : w.clock (w.now + 1) = w'.clock (w'.now + 1)) :
    ∃ r v v', (do SetRandSeed s; genMatpairM128 env A B) w = .ok (r, v) ∧
      (do SetRandSeed s; genMatpairM128 env' A' B') w' = .ok (r, v') := by
  rw [run_SetRandSeed, run_SetRandSeed]
  obtain ⟨r, v, v', h1, h2, -⟩ := C29_genMatpairM128 env env' he A B A' B' { w with randseed := s } { w' with randseed := s }
    (by simp only; rw [h])
  exact ⟨r, v, v', h1, h2⟩

/-- C29: `genaffinepairM128` depends only on the seed xor clock of its second and of its third seeding. -/
theorem C29_genaffinepairM128 (env env' : Env) (he : env.endian = env'.endian) (f0 g0 f0' g0' : Aff128) (w w' : World)
    (h1 : (w.randseed + 1#32) ^^^ w.clock (w.now + 1) = (w'.randseed + 1#32) ^^^ w'.clock (w'.now + 1))
    (h2 : (w.randseed + 2#32) ^^^ w.clock (w.now + 2) = (w'.randseed + 2#32) ^^^ w'.clock (w'.now + 2)) :
    ∃ r v v', genaffinepairM128 env f0 g0 w = .ok (r, v) ∧ genaffinepairM128 env' f0' g0' w' = .ok (r, v') ∧
      v.m_index = v'.m_index ∧ v.m_intermediateOffset = v'.m_intermediateOffset := by
  obtain ⟨⟨A, B⟩, v, v', e1, e2, i1, i2⟩ := C29_genMatpairM128 env env' he f0.Mat g0.Mat f0'.Mat g0'.Mat w w' h1
  have gw : GenWorld w v := by
    obtain ⟨⟨p, u⟩, hp, k⟩ := genMatpairM128_ok env f0.Mat g0.Mat w
    rw [hp] at e1
    cases e1
    exact k.2
  have gw' : GenWorld w' v' := by
    obtain ⟨⟨p, u⟩, hp, k⟩ := genMatpairM128_ok env' f0'.Mat g0'.Mat w'
    rw [hp] at e2
    cases e2
    exact k.2
  obtain ⟨V, u, u', q1, q2, q3⟩ := randV128_rel he f0.Vec f0'.Vec (seedOf_gen gw gw' h2)
  obtain ⟨y, m1, m2⟩ := ident_congr (fun _ _ => vec128_inj) (MatMulVecM128_ok env B V g0.Vec) (MatMulVecM128_ok env' B V g0'.Vec)
  refine ⟨(⟨A, V⟩, ⟨B, y⟩), u, u', ?_, ?_, q3.1, q3.2⟩
  · unfold genaffinepairM128
    rw [CM_bind_run e1]
    simp only
    rw [CM_bind_run q1, CM_bind_run (liftC_run _ m1)]
    rfl
  · unfold genaffinepairM128
    rw [CM_bind_run e2]
    simp only
    rw [CM_bind_run q2, CM_bind_run (liftC_run _ m2)]
    rfl

/-- C29: after `SetRandSeed` with the same value, with the same clock readings, `genaffinepairM128` gives the same pair. -/
theorem C29_SetRandSeed_genaffinepairM128 (env env' : Env) (he : env.endian = env'.endian) (f0 g0 f0' g0' : Aff128) (w w' : World) (s : BitVec 32)
    (h1 : w.clock (w.now + 1) = w'.clock (w'.now + 1)) (h2 : w.clock (w.now + 2) = w'.clock (w'.now + 2)) :
    ∃ r v v', (do SetRandSeed s; genaffinepairM128 env f0 g0) w = .ok (r, v) ∧
      (do SetRandSeed s; genaffinepairM128 env' f0' g0') w' = .ok (r, v') := by
  rw [run_SetRandSeed, run_SetRandSeed]
  obtain ⟨r, v, v', h1, h2, -⟩ := C29_genaffinepairM128 env env' he f0 g0 f0' g0' { w with randseed := s }
    { w' with randseed := s } (by simp only; rw [h1]) (by simp only; rw [h2])
  exact ⟨r, v, v', h1, h2⟩

/-- C29: after `SetRandSeed` with the same value, with the same clock reading, `randM256` gives the same result. -/
theorem C29_SetRandSeed_randM256 (env env' : Env) (he : env.endian = env'.endian) (X X' : M256) (w w' : World) (s : BitVec 32)
    (h : w.clock w.now = w'.clock w'.now) :
    ∃ r v v', (do SetRandSeed s; randM256 env X) w = .ok (r, v) ∧ (do SetRandSeed s; randM256 env' X') w' = .ok (r, v') := by
  rw [run_SetRandSeed, run_SetRandSeed]
  obtain ⟨r, v, v', h1, h2, -⟩ := C29_randM256 env env' he X X' { w with randseed := s } { w' with randseed := s }
    (by simp only; rw [h])
  exact ⟨r, v, v', h1, h2⟩

/-- C29: after `SetRandSeed` with the same value, with the same clock reading, `randV256` gives the same result. -/
theorem C29_SetRandSeed_randV256 (env env' : Env) (he : env.endian = env'.endian) (X X' : V256) (w w' : World) (s : BitVec 32)
    (h : w.clock w.now = w'.clock w'.now) :
    ∃ r v v', (do SetRandSeed s; randV256 env X) w = .ok (r, v) ∧ (do SetRandSeed s; randV256 env' X') w' = .ok (r, v') := by
  rw [run_SetRandSeed, run_SetRandSeed]
  obtain ⟨r, v, v', h1, h2, -⟩ := C29_randV256 env env' he X X' { w with randseed := s } { w' with randseed := s }
    (by simp only; rw [h])
  exact ⟨r, v, v', h1, h2⟩

/-- C29: after `SetRandSeed` with the same value, with the same second clock reading, `genMatpairM256` gives the same pair. -/
theorem C29_SetRandSeed_genMatpairM256 (env env' : Env) (he : env.endian = env'.endian) (A B A' B' : M256) (w w' : World) (s : BitVec 32)
    (h : w.clock (w.now + 1) = w'.clock (w'.now + 1)) :
    ∃ r v v', (do SetRandSeed s; genMatpairM256 env A B) w = .ok (r, v) ∧
      (do SetRandSeed s; genMatpairM256 env' A' B') w' = .ok (r, v') := by
  rw [run_SetRandSeed, run_SetRandSeed]
  obtain ⟨r, v, v', h1, h2, -⟩ := C29_genMatpairM256 env env' he A B A' B' { w with randseed := s } { w' with randseed := s }
    (by simp only; rw [h])
  exact ⟨r, v, v', h1, h2⟩

/-- A world with another history whose clock shows the same times from its current reading on. -/
def exWorld4 : World := ⟨77, 1, 2, fun k => BitVec.ofNat 32 (1700000000 + (k - 4) / 3), 4, ['y']⟩

example : exWorld.clock exWorld.now = exWorld4.clock exWorld4.now ∧
    exWorld.clock (exWorld.now + 1) = exWorld4.clock (exWorld4.now + 1) ∧
    exWorld.clock (exWorld.now + 2) = exWorld4.clock (exWorld4.now + 2) := by decide +kernel

/-- The same with the counter of `exWorld`. -/
def exWorld5 : World := { exWorld4 with randseed := 5 }

example : (exWorld.randseed + 1#32) ^^^ exWorld.clock (exWorld.now + 1) =
      (exWorld5.randseed + 1#32) ^^^ exWorld5.clock (exWorld5.now + 1) ∧
    (exWorld.randseed + 2#32) ^^^ exWorld.clock (exWorld.now + 2) =
      (exWorld5.randseed + 2#32) ^^^ exWorld5.clock (exWorld5.now + 2) := by decide +kernel

end WB
