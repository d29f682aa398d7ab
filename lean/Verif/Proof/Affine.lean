import Verif.Proof.Add
import Verif.Proof.ElimAll

/-!
# Affine functions (helper lemmas); written by `tools/gen_props2.py`
-/
namespace WB
open Matrix

theorem aff_cancel {n : Nat} {A B : Mat n} (h : B * A = 1) (x v : Fin n → ZMod 2) :
    B.mulVec (A.mulVec x + v) + B.mulVec v = x := by
  rw [mulVec_add, mulVec_mulVec, h, one_mulVec, add_assoc]
  have : B.mulVec v + B.mulVec v = 0 := by
    funext i
    have : ∀ a : ZMod 2, a + a = 0 := by decide
    exact this _
  rw [this, add_zero]

theorem aff_cancel' {n : Nat} {A B : Mat n} (h : A * B = 1) (x v : Fin n → ZMod 2) :
    A.mulVec (B.mulVec x + B.mulVec v) + v = x := by
  rw [mulVec_add, mulVec_mulVec, mulVec_mulVec, h, one_mulVec, one_mulVec, add_assoc]
  have : v + v = 0 := by
    funext i
    have : ∀ a : ZMod 2, a + a = 0 := by decide
    exact this _
  rw [this, add_zero]

theorem stV_ok (env : Env) {l : Nat} (v : Vector (BitVec 64) l) {c : Nat}
    (hc : c < l) (k : Nat) (hk : k < 2) (r : BitVec 32) :
    ∃ v', (do wr v c (← env.stSub (← rd v c) k r) : C _) = .ok v' := by
  obtain ⟨y, hy⟩ := stSub_eq env v[c] k r (by omega)
  rw [rd_ok _ _ hc, C_pure_bind, hy, C_pure_bind, wr_ok _ _ _ hc]
  exact ⟨_, rfl⟩

theorem randV4_ok (v : V4) (w : World) :
    OkM (randV4 v) w (fun v w' => Clean4 v ∧ RandWorld w w') := by
  unfold randV4
  rw [OkM.bind_iff]
  refine OkM_reseed w _ ?_
  intro w1 h1
  rw [OkM.bind_iff]
  refine OkM_random ?_
  intro r w2 h2
  rw [OkM.pure_iff]
  exact ⟨clean4_mask r, h1.onlyIndex h2⟩

theorem randV8_ok (v : V8) (w : World) :
    OkM (randV8 v) w (fun _ w' => RandWorld w w') := by
  unfold randV8
  rw [OkM.bind_iff]
  refine OkM_reseed w _ ?_
  intro w1 h1
  rw [OkM.bind_iff]
  refine OkM_random ?_
  intro r w2 h2
  rw [OkM.pure_iff]
  exact h1.onlyIndex h2

theorem randV16_ok (v : V16) (w : World) :
    OkM (randV16 v) w (fun _ w' => RandWorld w w') := by
  unfold randV16
  rw [OkM.bind_iff]
  refine OkM_reseed w _ ?_
  intro w1 h1
  rw [OkM.bind_iff]
  refine OkM_random ?_
  intro r w2 h2
  rw [OkM.pure_iff]
  exact h1.onlyIndex h2

theorem randV32_ok (v : V32) (w : World) :
    OkM (randV32 v) w (fun _ w' => RandWorld w w') := by
  unfold randV32
  rw [OkM.bind_iff]
  refine OkM_reseed w _ ?_
  intro w1 h1
  refine OkM_random ?_
  intro r w2 h2
  exact h1.onlyIndex h2

theorem randV64_ok (env : Env) (v : V64) (w : World) :
    OkM (randV64 env v) w (fun _ w' => OnlyIndex w w') := by
  unfold randV64
  rw [OkM.bind_iff]
  refine OkM_random ?_
  intro r w1 h1
  obtain ⟨v1, e1⟩ := stSub_eq env v 1 r (by omega)
  rw [OkM.bind_iff, OkM.liftC_iff, e1, Ok.ok_iff, OkM.bind_iff]
  refine OkM_random ?_
  intro r2 w2 h2
  obtain ⟨v2, e2⟩ := stSub_eq env v1 0 r2 (by omega)
  rw [OkM.liftC_iff, e2, Ok.ok_iff]
  exact h1.trans h2

theorem randV128_ok (env : Env) (v0 : V128) (w : World) :
    OkM (randV128 env v0) w (fun _ w' => RandWorld w w') := by
  unfold randV128
  rw [OkM.bind_iff]
  refine OkM_reseed w _ ?_
  intro w1 h1
  rw [OkM.bind_iff]
  refine OkM_random ?_
  intro r1 w2 h2
  obtain ⟨v1, e1⟩ := stV_ok env v0 (c := 0) (by omega) 1 (by omega) r1
  rw [OkM.bind_iff, OkM.liftC_iff, e1, Ok.ok_iff]
  rw [OkM.bind_iff]
  refine OkM_random ?_
  intro r2 w3 h3
  obtain ⟨v2, e2⟩ := stV_ok env v1 (c := 0) (by omega) 0 (by omega) r2
  rw [OkM.bind_iff, OkM.liftC_iff, e2, Ok.ok_iff]
  rw [OkM.bind_iff]
  refine OkM_random ?_
  intro r3 w4 h4
  obtain ⟨v3, e3⟩ := stV_ok env v2 (c := 1) (by omega) 1 (by omega) r3
  rw [OkM.bind_iff, OkM.liftC_iff, e3, Ok.ok_iff]
  rw [OkM.bind_iff]
  refine OkM_random ?_
  intro r4 w5 h5
  obtain ⟨v4, e4⟩ := stV_ok env v3 (c := 1) (by omega) 0 (by omega) r4
  rw [OkM.liftC_iff, e4, Ok.ok_iff]
  exact ((((h1.onlyIndex h2).onlyIndex h3).onlyIndex h4).onlyIndex h5)

theorem randV256_ok (env : Env) (v0 : V256) (w : World) :
    OkM (randV256 env v0) w (fun _ w' => RandWorld w w') := by
  unfold randV256
  rw [OkM.bind_iff]
  refine OkM_reseed w _ ?_
  intro w1 h1
  rw [OkM.bind_iff]
  refine OkM_random ?_
  intro r1 w2 h2
  obtain ⟨v1, e1⟩ := stV_ok env v0 (c := 0) (by omega) 1 (by omega) r1
  rw [OkM.bind_iff, OkM.liftC_iff, e1, Ok.ok_iff]
  rw [OkM.bind_iff]
  refine OkM_random ?_
  intro r2 w3 h3
  obtain ⟨v2, e2⟩ := stV_ok env v1 (c := 0) (by omega) 0 (by omega) r2
  rw [OkM.bind_iff, OkM.liftC_iff, e2, Ok.ok_iff]
  rw [OkM.bind_iff]
  refine OkM_random ?_
  intro r3 w4 h4
  obtain ⟨v3, e3⟩ := stV_ok env v2 (c := 1) (by omega) 1 (by omega) r3
  rw [OkM.bind_iff, OkM.liftC_iff, e3, Ok.ok_iff]
  rw [OkM.bind_iff]
  refine OkM_random ?_
  intro r4 w5 h5
  obtain ⟨v4, e4⟩ := stV_ok env v3 (c := 1) (by omega) 0 (by omega) r4
  rw [OkM.bind_iff, OkM.liftC_iff, e4, Ok.ok_iff]
  rw [OkM.bind_iff]
  refine OkM_random ?_
  intro r5 w6 h6
  obtain ⟨v5, e5⟩ := stV_ok env v4 (c := 2) (by omega) 1 (by omega) r5
  rw [OkM.bind_iff, OkM.liftC_iff, e5, Ok.ok_iff]
  rw [OkM.bind_iff]
  refine OkM_random ?_
  intro r6 w7 h7
  obtain ⟨v6, e6⟩ := stV_ok env v5 (c := 2) (by omega) 0 (by omega) r6
  rw [OkM.bind_iff, OkM.liftC_iff, e6, Ok.ok_iff]
  rw [OkM.bind_iff]
  refine OkM_random ?_
  intro r7 w8 h8
  obtain ⟨v7, e7⟩ := stV_ok env v6 (c := 3) (by omega) 1 (by omega) r7
  rw [OkM.bind_iff, OkM.liftC_iff, e7, Ok.ok_iff]
  rw [OkM.bind_iff]
  refine OkM_random ?_
  intro r8 w9 h9
  obtain ⟨v8, e8⟩ := stV_ok env v7 (c := 3) (by omega) 0 (by omega) r8
  rw [OkM.liftC_iff, e8, Ok.ok_iff]
  exact ((((((((h1.onlyIndex h2).onlyIndex h3).onlyIndex h4).onlyIndex h5).onlyIndex h6).onlyIndex h7).onlyIndex h8).onlyIndex h9)

theorem affineU4_ok (env : Env) (f : Aff4) (x : BitVec 8) :
    Ok (affineU4 env f x) (fun y => vec4 y = (mat4 f.Mat).mulVec (vec4 x) + vec4 f.Vec ∧ (Clean4 f.Vec → Clean4 y)) := by
  unfold affineU4
  refine Ok.bind (MatMulVecM4_ok env f.Mat x _) ?_
  intro y hy
  rw [Ok.pure_iff]
  exact ⟨by rw [← hy.1]; exact vec_add y f.Vec, clean4_xor hy.2⟩

theorem affineU8_ok (env : Env) (f : Aff8) (x : BitVec 8) :
    Ok (affineU8 env f x) (fun y => vec8 y = (mat8 f.Mat).mulVec (vec8 x) + vec8 f.Vec) := by
  unfold affineU8
  refine Ok.bind (MatMulVecM8_ok env f.Mat x _) ?_
  intro y hy
  rw [Ok.pure_iff]
  rw [← hy]
  exact vec_add y f.Vec

theorem affineU16_ok (env : Env) (f : Aff16) (x : BitVec 16) :
    Ok (affineU16 env f x) (fun y => vec16 y = (mat16 f.Mat).mulVec (vec16 x) + vec16 f.Vec) := by
  unfold affineU16
  refine Ok.bind (MatMulVecM16_ok env f.Mat x _) ?_
  intro y hy
  rw [Ok.pure_iff]
  rw [← hy]
  exact vec_add y f.Vec

theorem affineU32_ok (env : Env) (f : Aff32) (x : BitVec 32) :
    Ok (affineU32 env f x) (fun y => vec32 y = (mat32 f.Mat).mulVec (vec32 x) + vec32 f.Vec) := by
  unfold affineU32
  refine Ok.bind (MatMulVecM32_ok env f.Mat x _) ?_
  intro y hy
  rw [Ok.pure_iff]
  rw [← hy]
  exact vec_add y f.Vec

theorem affineU64_ok (env : Env) (f : Aff64) (x : BitVec 64) :
    Ok (affineU64 env f x) (fun y => vec64 y = (mat64 f.Mat).mulVec (vec64 x) + vec64 f.Vec) := by
  unfold affineU64
  refine Ok.bind (MatMulVecM64_ok env f.Mat x _) ?_
  intro y hy
  rw [Ok.pure_iff]
  rw [← hy]
  exact vec_add y f.Vec

theorem affineU128_aux (F : Vector (BitVec 64) 2 → C (Vector (BitVec 64) 2))
    (j x z v : Vector (BitVec 64) 2) :
    (do
      let mul_vec ← wr j 0 (← rd x 0)
      let mul_vec ← wr mul_vec 1 (← rd x 1)
      let ans_vec ← F mul_vec
      let ans ← wr z 0 ((← rd ans_vec 0) ^^^ (← rd v 0))
      let ans ← wr ans 1 ((← rd ans_vec 1) ^^^ (← rd v 1))
      pure ans) = F x >>= fun y => .ok #v[y[0] ^^^ v[0], y[1] ^^^ v[1]] := by
  rw [rd_ok x 0 (by omega), rd_ok x 1 (by omega), C_pure_bind, wr_ok _ _ _ (by omega), C_pure_bind,
    C_pure_bind, wr_ok _ _ _ (by omega), C_pure_bind]
  have e : (j.set 0 x[0]).set 1 x[1] = x := by
    refine Vector.ext fun k hk => ?_
    obtain rfl | rfl : k = 0 ∨ k = 1 := by omega
    all_goals simp
  rw [e]
  refine congrArg (fun k => F x >>= k) (funext fun y => ?_)
  rw [rd_ok y 0 (by omega), rd_ok y 1 (by omega), rd_ok v 0 (by omega),
    rd_ok v 1 (by omega), C_pure_bind, C_pure_bind, wr_ok _ _ _ (by omega), C_pure_bind,
    C_pure_bind, C_pure_bind, wr_ok _ _ _ (by omega)]
  refine congrArg Except.ok (Vector.ext fun k hk => ?_)
  obtain rfl | rfl : k = 0 ∨ k = 1 := by omega
  all_goals simp

theorem affineU128_eq (env : Env) (f : Aff128) (x z : Vector (BitVec 64) 2) :
    affineU128 env f x z = MatMulVecM128 env f.Mat x (env.junkArr 64 2) >>=
      fun y => .ok #v[y[0] ^^^ f.Vec[0], y[1] ^^^ f.Vec[1]] := by
  unfold affineU128
  exact affineU128_aux (fun m => MatMulVecM128 env f.Mat m (env.junkArr 64 2)) _ x z f.Vec

theorem affineU128_ok (env : Env) (f : Aff128) (x z : Vector (BitVec 64) 2) :
    Ok (affineU128 env f x z)
      (fun y => vec128 y = (mat128 f.Mat).mulVec (vec128 x) + vec128 f.Vec) := by
  rw [affineU128_eq]
  refine Ok.bind (MatMulVecM128_ok env f.Mat x _) ?_
  intro y hy
  rw [Ok.ok_iff, ← hy]
  refine vecW_add (by norm_num) ?_
  intro k hk
  obtain rfl | rfl : k = 0 ∨ k = 1 := by omega
  all_goals simp

theorem genaffinepairM4_ok (env : Env) (f0 g0 : Aff4) (w : World) :
    OkM (genaffinepairM4 env f0 g0) w (fun p w' =>
      mat4 p.1.Mat * mat4 p.2.Mat = 1 ∧
      vec4 p.2.Vec = (mat4 p.2.Mat).mulVec (vec4 p.1.Vec) ∧ CleanM4 p.1.Mat ∧ CleanM4 p.2.Mat ∧ Clean4 p.1.Vec ∧ Clean4 p.2.Vec ∧
      w'.randseed = w.randseed + 3#32 ∧ w'.now = w.now + 3 ∧ w'.clock = w.clock ∧ w'.out = w.out) := by
  unfold genaffinepairM4
  refine OkM.bind (genMatpairM4_ok env f0.Mat g0.Mat w) ?_
  rintro ⟨A, B⟩ w1 ⟨hAB, hcA, hcB, hw1⟩
  refine OkM.bind (randV4_ok f0.Vec w1) ?_
  rintro v w2 ⟨hv, hw2⟩
  rw [OkM.bind_iff, OkM.liftC_iff]
  refine (MatMulVecM4_ok env B v g0.Vec).mono ?_
  intro u hu
  rw [OkM.pure_iff]
  obtain ⟨a1, a2, a3, a4⟩ := hw1
  obtain ⟨b1, b2, b3, b4⟩ := hw2
  refine ⟨hAB, hu.1, hcA, hcB, hv, hu.2, ?_, by omega, b3.trans a3, b4.trans a4⟩
  rw [b1, a1, BitVec.add_assoc]; rfl

theorem affinemixM4_ok (env : Env) (f g m0 : Aff4) (hg : CleanM4 g.Mat) :
    Ok (affinemixM4 env f g m0) (fun m => mat4 m.Mat = mat4 f.Mat * mat4 g.Mat ∧
      vec4 m.Vec = (mat4 f.Mat).mulVec (vec4 g.Vec) + vec4 f.Vec ∧ CleanM4 m.Mat ∧ (Clean4 f.Vec → Clean4 m.Vec)) := by
  unfold affinemixM4
  refine Ok.bind (MatMulMatM4_ok env f.Mat g.Mat _ hg) ?_
  intro A hA
  refine Ok.bind (MatMulVecM4_ok env f.Mat g.Vec _) ?_
  intro v hv
  rw [Ok.pure_iff]
  exact ⟨hA.1, by rw [← hv.1]; exact vec_add v f.Vec, hA.2, clean4_xor hv.2⟩

theorem genaffinepairM8_ok (env : Env) (f0 g0 : Aff8) (w : World) :
    OkM (genaffinepairM8 env f0 g0) w (fun p w' =>
      mat8 p.1.Mat * mat8 p.2.Mat = 1 ∧
      vec8 p.2.Vec = (mat8 p.2.Mat).mulVec (vec8 p.1.Vec) ∧
      w'.randseed = w.randseed + 3#32 ∧ w'.now = w.now + 3 ∧ w'.clock = w.clock ∧ w'.out = w.out) := by
  unfold genaffinepairM8
  refine OkM.bind (genMatpairM8_ok env f0.Mat g0.Mat w) ?_
  rintro ⟨A, B⟩ w1 ⟨hAB, hw1⟩
  refine OkM.bind (randV8_ok f0.Vec w1) ?_
  intro v w2 hw2
  rw [OkM.bind_iff, OkM.liftC_iff]
  refine (MatMulVecM8_ok env B v g0.Vec).mono ?_
  intro u hu
  rw [OkM.pure_iff]
  obtain ⟨a1, a2, a3, a4⟩ := hw1
  obtain ⟨b1, b2, b3, b4⟩ := hw2
  refine ⟨hAB, hu, ?_, by omega, b3.trans a3, b4.trans a4⟩
  rw [b1, a1, BitVec.add_assoc]; rfl

theorem affinemixM8_ok (env : Env) (f g m0 : Aff8) :
    Ok (affinemixM8 env f g m0) (fun m => mat8 m.Mat = mat8 f.Mat * mat8 g.Mat ∧
      vec8 m.Vec = (mat8 f.Mat).mulVec (vec8 g.Vec) + vec8 f.Vec) := by
  unfold affinemixM8
  refine Ok.bind (MatMulMatM8_ok env f.Mat g.Mat _) ?_
  intro A hA
  refine Ok.bind (MatMulVecM8_ok env f.Mat g.Vec _) ?_
  intro v hv
  rw [Ok.pure_iff]
  exact ⟨hA, by rw [← hv]; exact vec_add v f.Vec⟩

theorem genaffinepairM16_ok (env : Env) (f0 g0 : Aff16) (w : World) :
    OkM (genaffinepairM16 env f0 g0) w (fun p w' =>
      mat16 p.1.Mat * mat16 p.2.Mat = 1 ∧
      vec16 p.2.Vec = (mat16 p.2.Mat).mulVec (vec16 p.1.Vec) ∧
      w'.randseed = w.randseed + 3#32 ∧ w'.now = w.now + 3 ∧ w'.clock = w.clock ∧ w'.out = w.out) := by
  unfold genaffinepairM16
  refine OkM.bind (genMatpairM16_ok env f0.Mat g0.Mat w) ?_
  rintro ⟨A, B⟩ w1 ⟨hAB, hw1⟩
  refine OkM.bind (randV16_ok f0.Vec w1) ?_
  intro v w2 hw2
  rw [OkM.bind_iff, OkM.liftC_iff]
  refine (MatMulVecM16_ok env B v g0.Vec).mono ?_
  intro u hu
  rw [OkM.pure_iff]
  obtain ⟨a1, a2, a3, a4⟩ := hw1
  obtain ⟨b1, b2, b3, b4⟩ := hw2
  refine ⟨hAB, hu, ?_, by omega, b3.trans a3, b4.trans a4⟩
  rw [b1, a1, BitVec.add_assoc]; rfl

theorem affinemixM16_ok (env : Env) (f g m0 : Aff16) :
    Ok (affinemixM16 env f g m0) (fun m => mat16 m.Mat = mat16 f.Mat * mat16 g.Mat ∧
      vec16 m.Vec = (mat16 f.Mat).mulVec (vec16 g.Vec) + vec16 f.Vec) := by
  unfold affinemixM16
  refine Ok.bind (MatMulMatM16_ok env f.Mat g.Mat _) ?_
  intro A hA
  refine Ok.bind (MatMulVecM16_ok env f.Mat g.Vec _) ?_
  intro v hv
  rw [Ok.pure_iff]
  exact ⟨hA, by rw [← hv]; exact vec_add v f.Vec⟩

theorem genaffinepairM32_ok (env : Env) (f0 g0 : Aff32) (w : World) :
    OkM (genaffinepairM32 env f0 g0) w (fun p w' =>
      mat32 p.1.Mat * mat32 p.2.Mat = 1 ∧
      vec32 p.2.Vec = (mat32 p.2.Mat).mulVec (vec32 p.1.Vec) ∧
      w'.randseed = w.randseed + 3#32 ∧ w'.now = w.now + 3 ∧ w'.clock = w.clock ∧ w'.out = w.out) := by
  unfold genaffinepairM32
  refine OkM.bind (genMatpairM32_ok env f0.Mat g0.Mat w) ?_
  rintro ⟨A, B⟩ w1 ⟨hAB, hw1⟩
  refine OkM.bind (randV32_ok f0.Vec w1) ?_
  intro v w2 hw2
  rw [OkM.bind_iff, OkM.liftC_iff]
  refine (MatMulVecM32_ok env B v g0.Vec).mono ?_
  intro u hu
  rw [OkM.pure_iff]
  obtain ⟨a1, a2, a3, a4⟩ := hw1
  obtain ⟨b1, b2, b3, b4⟩ := hw2
  refine ⟨hAB, hu, ?_, by omega, b3.trans a3, b4.trans a4⟩
  rw [b1, a1, BitVec.add_assoc]; rfl

theorem affinemixM32_ok (env : Env) (f g m0 : Aff32) :
    Ok (affinemixM32 env f g m0) (fun m => mat32 m.Mat = mat32 f.Mat * mat32 g.Mat ∧
      vec32 m.Vec = (mat32 f.Mat).mulVec (vec32 g.Vec) + vec32 f.Vec) := by
  unfold affinemixM32
  refine Ok.bind (MatMulMatM32_ok env f.Mat g.Mat _) ?_
  intro A hA
  refine Ok.bind (MatMulVecM32_ok env f.Mat g.Vec _) ?_
  intro v hv
  rw [Ok.pure_iff]
  exact ⟨hA, by rw [← hv]; exact vec_add v f.Vec⟩

theorem genaffinepairM64_ok (env : Env) (f0 g0 : Aff64) (w : World) :
    OkM (genaffinepairM64 env f0 g0) w (fun p w' =>
      mat64 p.1.Mat * mat64 p.2.Mat = 1 ∧
      vec64 p.2.Vec = (mat64 p.2.Mat).mulVec (vec64 p.1.Vec) ∧
      w'.randseed = w.randseed + 2#32 ∧ w'.now = w.now + 2 ∧ w'.clock = w.clock ∧ w'.out = w.out) := by
  unfold genaffinepairM64
  refine OkM.bind (genMatpairM64_ok env f0.Mat g0.Mat w) ?_
  rintro ⟨A, B⟩ w1 ⟨hAB, hw1⟩
  refine OkM.bind (randV64_ok env f0.Vec w1) ?_
  intro v w2 hw2
  rw [OkM.bind_iff, OkM.liftC_iff]
  refine (MatMulVecM64_ok env B v g0.Vec).mono ?_
  intro u hu
  rw [OkM.pure_iff]
  obtain ⟨k, rfl⟩ := hw2
  exact ⟨hAB, hu, hw1.1, hw1.2.1, hw1.2.2.1, hw1.2.2.2⟩

theorem affinemixM64_ok (env : Env) (f g m0 : Aff64) :
    Ok (affinemixM64 env f g m0) (fun m => mat64 m.Mat = mat64 f.Mat * mat64 g.Mat ∧
      vec64 m.Vec = (mat64 f.Mat).mulVec (vec64 g.Vec) + vec64 f.Vec) := by
  unfold affinemixM64
  refine Ok.bind (MatMulMatM64_ok env f.Mat g.Mat _) ?_
  intro A hA
  refine Ok.bind (MatMulVecM64_ok env f.Mat g.Vec _) ?_
  intro v hv
  rw [Ok.pure_iff]
  exact ⟨hA, by rw [← hv]; exact vec_add v f.Vec⟩

theorem genaffinepairM128_ok (env : Env) (f0 g0 : Aff128) (w : World) :
    OkM (genaffinepairM128 env f0 g0) w (fun p w' =>
      mat128 p.1.Mat * mat128 p.2.Mat = 1 ∧
      vec128 p.2.Vec = (mat128 p.2.Mat).mulVec (vec128 p.1.Vec) ∧
      w'.randseed = w.randseed + 3#32 ∧ w'.now = w.now + 3 ∧ w'.clock = w.clock ∧ w'.out = w.out) := by
  unfold genaffinepairM128
  refine OkM.bind (genMatpairM128_ok env f0.Mat g0.Mat w) ?_
  rintro ⟨A, B⟩ w1 ⟨hAB, hw1⟩
  refine OkM.bind (randV128_ok env f0.Vec w1) ?_
  intro v w2 hw2
  rw [OkM.bind_iff, OkM.liftC_iff]
  refine (MatMulVecM128_ok env B v g0.Vec).mono ?_
  intro u hu
  rw [OkM.pure_iff]
  obtain ⟨a1, a2, a3, a4⟩ := hw1
  obtain ⟨b1, b2, b3, b4⟩ := hw2
  refine ⟨hAB, hu, ?_, by omega, b3.trans a3, b4.trans a4⟩
  rw [b1, a1, BitVec.add_assoc]; rfl

theorem affinemixM128_ok (env : Env) (f g m0 : Aff128) :
    Ok (affinemixM128 env f g m0) (fun m => mat128 m.Mat = mat128 f.Mat * mat128 g.Mat ∧
      vec128 m.Vec = (mat128 f.Mat).mulVec (vec128 g.Vec) + vec128 f.Vec) := by
  unfold affinemixM128
  refine Ok.bind (MatMulMatM128_ok env f.Mat g.Mat _) ?_
  intro A hA
  refine Ok.bind (MatMulVecM128_ok env f.Mat g.Vec _) ?_
  intro v hv
  rw [rd_ok v _ (by omega : 0 < 2), rd_ok _ _ (by omega : 0 < 2), rd_ok _ _ (by omega : 1 < 2)]
  simp only [C_pure_bind]
  rw [wr_ok _ _ _ (by omega), C_pure_bind, rd_ok _ _ (by omega : 1 < 2), C_pure_bind,
    wr_ok _ _ _ (by omega), C_pure_bind, Ok.pure_iff]
  refine ⟨hA, ?_⟩
  rw [← hv]
  refine vecW_add (by norm_num) ?_
  intro k hk
  obtain rfl | rfl : k = 0 ∨ k = 1 := by omega
  all_goals simp

end WB
