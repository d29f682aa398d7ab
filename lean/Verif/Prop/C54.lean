import Verif.Proof.OldRand
import Verif.Prop.Examples

/-!
# C54 — the older library bundled with the demos and the current one

Functions of the older version 3.1.1 are in the namespace `old`; those that are not there have the same text in both
versions.
-/
namespace WB
open Matrix

set_option maxRecDepth 20000

/-! ## 4 -/

/-- C54: both versions of `isequalM4` agree. -/
theorem C54_isequalM4 (A B : M4) : old.isequalM4 A B = isequalM4 A B := old_isequalM4_eq A B

/-- C54: both versions of `isequalV4` agree. -/
theorem C54_isequalV4 (x y : V4) : old.isequalV4 x y = isequalV4 x y := old_isequalV4_eq x y

/-- C54: both versions of `MattransM4` agree on matrices without dirt, whatever the outputs and the stack contained before. -/
theorem C54_MattransM4 (env : Env) (A T0 T1 : M4) (hA : CleanM4 A) : old.MattransM4 A T0 = MattransM4 env A T1 :=
  old_Mattrans4_eq env A T0 T1 hA

/-- C54: both versions of `MatMulMatM4` agree if the right factor has no dirt. -/
theorem C54_MatMulMatM4 (env : Env) (A B C0 : M4) (hB : CleanM4 B) : old.MatMulMatM4 env A B C0 = MatMulMatM4 env A B C0 :=
  old_MatMulMat4_eq env A B C0 hB

/-- C54: both versions of `affinemixM4` agree if the inner matrix has no dirt. -/
theorem C54_affinemixM4 (env : Env) (f g m : Aff4) (hg : CleanM4 g.Mat) : old.affinemixM4 env f g m = affinemixM4 env f g m :=
  old_affinemix4_eq env f g m hg

/-- C54: both versions of `genMatpairM4` return the same pair and leave the same state behind. -/
theorem C54_genMatpairM4 (env : Env) (A B : M4) (w : World) : old.genMatpairM4 env A B w = genMatpairM4 env A B w := by
  rw [old_genMatpair4_eq]

example : old.isequalM4 exA4 exA4 = .ok 1 ∧ old.isequalM4 exA4 exB4 = .ok 0 := by decide +kernel
example : old.isequalV4 exX4 exX4 = .ok 1 := by decide +kernel
example : (do old.MattransM4 (← old.MattransM4 exB4 exA4) exA4) = .ok exB4 := by decide +kernel
example : CleanM4 exA4 ∧ CleanM4 exB4 := by decide

/-- C54: both versions of `genaffinepairM4` return the same pair and leave the same state behind. -/
theorem C54_genaffinepairM4 (env : Env) (f g : Aff4) (w : World) :
    old.genaffinepairM4 env f g w = genaffinepairM4 env f g w := by
  rw [old_genaffinepair4_eq]

/-- C54: the older `MattransM4` is correct on every matrix, with or without dirt in the high nibbles. -/
theorem C54_old_MattransM4_any (A T0 : M4) : ∃ T, old.MattransM4 A T0 = .ok T ∧ mat4 T = (mat4 A)ᵀ ∧ CleanM4 T :=
  old_Mattrans4_ok A T0

/-- C54: the older `MatMulMatM4` is correct on all matrices, with or without dirt in the high nibbles. -/
theorem C54_old_MatMulMatM4_any (env : Env) (A B C0 : M4) :
    ∃ P, old.MatMulMatM4 env A B C0 = .ok P ∧ mat4 P = mat4 A * mat4 B ∧ CleanM4 P :=
  old_MatMulMat4_ok env A B C0

/-- C54: on a matrix with dirt the two versions of `MattransM4` differ. -/
theorem C54_MattransM4_differs (env : Env) : ∃ A, ∀ T0 T1, ∃ X Y, old.MattransM4 A T0 = .ok X ∧ MattransM4 env A T1 = .ok Y ∧
    mat4 X ≠ mat4 Y := by
  refine ⟨#v[8, 0x14, 2, 1], fun T0 T1 => ?_⟩
  obtain ⟨X, hX, h, -⟩ := old_Mattrans4_ok #v[8, 0x14, 2, 1] T0
  refine ⟨X, _, hX, trans4_eval env _ _ _ _ T1, ?_⟩
  rw [h]
  decide

/-- C54: with dirt in the right factor the two versions of `MatMulMatM4` differ. -/
theorem C54_MatMulMatM4_differs (env : Env) : ∃ A B, ∀ C0, ∃ X Y, old.MatMulMatM4 env A B C0 = .ok X ∧
    MatMulMatM4 env A B C0 = .ok Y ∧ mat4 X ≠ mat4 Y := by
  refine ⟨#v[8, 4, 2, 1], #v[8, 0x14, 2, 1], fun C0 => ?_⟩
  obtain ⟨X, hX, h, -⟩ := old_MatMulMat4_ok env #v[8, 4, 2, 1] #v[8, 0x14, 2, 1] C0
  obtain ⟨Y, hY, h', -⟩ := MatMulMatM4_any env #v[8, 4, 2, 1] #v[8, 0x14, 2, 1] C0
  refine ⟨X, Y, hX, hY, ?_⟩
  rw [h, h']
  decide

example : old.MattransM4 #v[0xf8, 0xf4, 0xf2, 0xe1] exB4 = .ok #v[8, 4, 2, 1] := by decide +kernel

/-! ## 8 -/

/-- C54: both versions of `isequalM8` agree. -/
theorem C54_isequalM8 (A B : M8) : old.isequalM8 A B = isequalM8 A B := old_isequalM8_eq A B

/-- C54: both versions of `isequalV8` agree. -/
theorem C54_isequalV8 (x y : V8) : old.isequalV8 x y = isequalV8 x y := old_isequalV8_eq x y

/-- C54: both versions of `MattransM8` agree, whatever the outputs and the stack contained before. -/
theorem C54_MattransM8 (env : Env) (A T0 T1 : M8) : old.MattransM8 A T0 = MattransM8 env A T1 :=
  old_Mattrans8_eq env A T0 T1

/-- C54: both versions of `MatMulMatM8` agree. -/
theorem C54_MatMulMatM8 (env : Env) (A B C0 : M8) : old.MatMulMatM8 env A B C0 = MatMulMatM8 env A B C0 :=
  old_MatMulMat8_eq env A B C0

/-- C54: both versions of `affinemixM8` agree. -/
theorem C54_affinemixM8 (env : Env) (f g m : Aff8) : old.affinemixM8 env f g m = affinemixM8 env f g m :=
  old_affinemix8_eq env f g m

/-- C54: both versions of `genMatpairM8` return the same pair and leave the same state behind. -/
theorem C54_genMatpairM8 (env : Env) (A B : M8) (w : World) : old.genMatpairM8 env A B w = genMatpairM8 env A B w := by
  rw [old_genMatpair8_eq]

example : old.isequalM8 exA8 exA8 = .ok 1 ∧ old.isequalM8 exA8 exB8 = .ok 0 := by decide +kernel
example : old.isequalV8 exX8 exX8 = .ok 1 := by decide +kernel
example : (do old.MattransM8 (← old.MattransM8 exB8 exA8) exA8) = .ok exB8 := by decide +kernel

/-- C54: both versions of `genaffinepairM8` return the same pair and leave the same state behind. -/
theorem C54_genaffinepairM8 (env : Env) (f g : Aff8) (w : World) :
    old.genaffinepairM8 env f g w = genaffinepairM8 env f g w := by
  rw [old_genaffinepair8_eq]

/-! ## 16 -/

/-- C54: both versions of `isequalM16` agree. -/
theorem C54_isequalM16 (A B : M16) : old.isequalM16 A B = isequalM16 A B := old_isequalM16_eq A B

/-- C54: both versions of `isequalV16` agree. -/
theorem C54_isequalV16 (x y : V16) : old.isequalV16 x y = isequalV16 x y := old_isequalV16_eq x y

/-- C54: both versions of `MattransM16` agree, whatever the outputs and the stack contained before. -/
theorem C54_MattransM16 (env : Env) (A T0 T1 : M16) : old.MattransM16 A T0 = MattransM16 env A T1 :=
  old_Mattrans16_eq env A T0 T1

/-- C54: both versions of `MatMulMatM16` agree. -/
theorem C54_MatMulMatM16 (env : Env) (A B C0 : M16) : old.MatMulMatM16 env A B C0 = MatMulMatM16 env A B C0 :=
  old_MatMulMat16_eq env A B C0

/-- C54: both versions of `affinemixM16` agree. -/
theorem C54_affinemixM16 (env : Env) (f g m : Aff16) : old.affinemixM16 env f g m = affinemixM16 env f g m :=
  old_affinemix16_eq env f g m

/-- C54: both versions of `genMatpairM16` return the same pair and leave the same state behind. -/
theorem C54_genMatpairM16 (env : Env) (A B : M16) (w : World) : old.genMatpairM16 env A B w = genMatpairM16 env A B w := by
  rw [old_genMatpair16_eq]

example : old.isequalM16 exA16 exA16 = .ok 1 ∧ old.isequalM16 exA16 exB16 = .ok 0 := by decide +kernel
example : old.isequalV16 exX16 exX16 = .ok 1 := by decide +kernel
example : (do old.MattransM16 (← old.MattransM16 exB16 exA16) exA16) = .ok exB16 := by decide +kernel

/-- C54: both versions of `genaffinepairM16` return the same pair and leave the same state behind. -/
theorem C54_genaffinepairM16 (env : Env) (f g : Aff16) (w : World) :
    old.genaffinepairM16 env f g w = genaffinepairM16 env f g w := by
  rw [old_genaffinepair16_eq]

/-! ## 32 -/

/-- C54: both versions of `isequalM32` agree. -/
theorem C54_isequalM32 (A B : M32) : old.isequalM32 A B = isequalM32 A B := old_isequalM32_eq A B

/-- C54: both versions of `isequalV32` agree. -/
theorem C54_isequalV32 (x y : V32) : old.isequalV32 x y = isequalV32 x y := old_isequalV32_eq x y

/-- C54: both versions of `MattransM32` agree, whatever the outputs and the stack contained before. -/
theorem C54_MattransM32 (env : Env) (A T0 T1 : M32) : old.MattransM32 A T0 = MattransM32 env A T1 :=
  old_Mattrans32_eq env A T0 T1

/-- C54: both versions of `MatMulMatM32` agree. -/
theorem C54_MatMulMatM32 (env : Env) (A B C0 : M32) : old.MatMulMatM32 env A B C0 = MatMulMatM32 env A B C0 :=
  old_MatMulMat32_eq env A B C0

/-- C54: both versions of `affinemixM32` agree. -/
theorem C54_affinemixM32 (env : Env) (f g m : Aff32) : old.affinemixM32 env f g m = affinemixM32 env f g m :=
  old_affinemix32_eq env f g m

/-- C54: both versions of `genMatpairM32` return the same pair and leave the same state behind. -/
theorem C54_genMatpairM32 (env : Env) (A B : M32) (w : World) : old.genMatpairM32 env A B w = genMatpairM32 env A B w := by
  rw [old_genMatpair32_eq]

example : old.isequalM32 exA32 exA32 = .ok 1 ∧ old.isequalM32 exA32 exB32 = .ok 0 := by decide +kernel
example : old.isequalV32 exX32 exX32 = .ok 1 := by decide +kernel
example : (do old.MattransM32 (← old.MattransM32 exB32 exA32) exA32) = .ok exB32 := by decide +kernel

/-- C54: the two versions of `genaffinepairM32` choose the same matrices; the older one may choose other vectors, but
its two results are inverse to each other as well. -/
theorem C54_genaffinepairM32 (env : Env) (f0 g0 : Aff32) (w : World) :
    ∃ f g w' f' g' w'', old.genaffinepairM32 env f0 g0 w = .ok ((f, g), w') ∧
      genaffinepairM32 env f0 g0 w = .ok ((f', g'), w'') ∧ f.Mat = f'.Mat ∧ g.Mat = g'.Mat ∧
      ∀ (x : BitVec 32),
        (∃ y, affineU32 env f x = .ok y ∧ affineU32 env g y = .ok x) ∧
        (∃ y, affineU32 env g x = .ok y ∧ affineU32 env f y = .ok x) := by
  obtain ⟨⟨⟨A, B⟩, w1⟩, h, hAB, -⟩ := genMatpairM32_ok env f0.Mat g0.Mat w
  obtain ⟨⟨v, w2⟩, r⟩ : ∃ p, old.randV32 env f0.Vec w1 = .ok p := ⟨_, old_randV32_run env f0.Vec w1⟩
  obtain ⟨⟨v', w2'⟩, r'⟩ : ∃ p, randV32 f0.Vec w1 = .ok p := ⟨_, randV32_run f0.Vec w1⟩
  obtain ⟨u, hu, hv⟩ := MatMulVecM32_ok env B v g0.Vec
  obtain ⟨u', hu', -⟩ := MatMulVecM32_ok env B v' g0.Vec
  refine ⟨⟨A, v⟩, ⟨B, u⟩, w2, ⟨A, v'⟩, ⟨B, u'⟩, w2', ?_, ?_, rfl, rfl, ?_⟩
  · unfold old.genaffinepairM32
    rw [old_genMatpair32_eq, CM_bind_run h]
    simp only
    rw [CM_bind_run r]
    exact CM_bind_run (liftC_run _ hu)
  · unfold genaffinepairM32
    rw [CM_bind_run h]
    simp only
    rw [CM_bind_run r']
    exact CM_bind_run (liftC_run _ hu')
  · intro x
    constructor
    · obtain ⟨y, hy, e1⟩ := affineU32_ok env ⟨A, v⟩ x
      obtain ⟨x', hx', e2⟩ := affineU32_ok env ⟨B, u⟩ y
      have e : x' = x := vec32_inj (by rw [e2, e1, hv]; exact aff_cancel (mat_comm hAB) _ _)
      exact ⟨y, hy, e ▸ hx'⟩
    · obtain ⟨y, hy, e1⟩ := affineU32_ok env ⟨B, u⟩ x
      obtain ⟨x', hx', e2⟩ := affineU32_ok env ⟨A, v⟩ y
      have e : x' = x := vec32_inj (by rw [e2, e1, hv]; exact aff_cancel' hAB _ _)
      exact ⟨y, hy, e ▸ hx'⟩

/-- C54: the two versions of `randV32` differ: there is a state in which they return different vectors. -/
theorem C54_randV32_differs : ∃ (env : Env) (w : World) (x y : V32) (w' w'' : World), old.randV32 env exX32 w = .ok (x, w') ∧
    randV32 exX32 w = .ok (y, w'') ∧ x ≠ y :=
  ⟨exEnv, exWorld, _, _, _, _, old_randV32_run _ _ _, randV32_run _ _, by decide +kernel⟩

/-- C54: the older `randV32` is determined by the seed: two runs in states with the same seed and clock reading give the
same vector, whatever the states of the generator and the previous contents. -/
theorem C54_old_randV32_seeded (env env' : Env) (he : env.endian = env'.endian) (X X' : V32) (w w' : World)
    (h : w.randseed ^^^ w.clock w.now = w'.randseed ^^^ w'.clock w'.now) :
    ∃ r v v', old.randV32 env X w = .ok (r, v) ∧ old.randV32 env' X' w' = .ok (r, v') := by
  have hs : GenEq w.seeded w'.seeded := seeded_congr h
  refine ⟨_, _, w'.seeded.adv 2, old_randV32_run env X w, ?_⟩
  · rw [old_randV32_run env' X' w']
    congr 2
    rw [half_congr hs, half_congr hs, pair32_congr he]

example : (exWorld.randseed ^^^ exWorld.clock exWorld.now) =
    (⟨5, 99, 1, exWorld.clock, 1, ['a']⟩ : World).randseed ^^^ exWorld.clock 1 := by decide

/-! ## 64 -/

/-- C54: both versions of `isequalM64` agree. -/
theorem C54_isequalM64 (A B : M64) : old.isequalM64 A B = isequalM64 A B := old_isequalM64_eq A B

/-- C54: both versions of `isequalV64` agree. -/
theorem C54_isequalV64 (x y : V64) : old.isequalV64 x y = isequalV64 x y := old_isequalV64_eq x y

/-- C54: both versions of `MattransM64` agree, whatever the outputs and the stack contained before. -/
theorem C54_MattransM64 (env : Env) (A T0 T1 : M64) : old.MattransM64 A T0 = MattransM64 env A T1 :=
  old_Mattrans64_eq env A T0 T1

/-- C54: both versions of `MatMulMatM64` agree. -/
theorem C54_MatMulMatM64 (env : Env) (A B C0 : M64) : old.MatMulMatM64 env A B C0 = MatMulMatM64 env A B C0 :=
  old_MatMulMat64_eq env A B C0

/-- C54: both versions of `affinemixM64` agree. -/
theorem C54_affinemixM64 (env : Env) (f g m : Aff64) : old.affinemixM64 env f g m = affinemixM64 env f g m :=
  old_affinemix64_eq env f g m

/-- C54: both versions of `genMatpairM64` return the same pair and leave the same state behind. -/
theorem C54_genMatpairM64 (env : Env) (A B : M64) (w : World) : old.genMatpairM64 env A B w = genMatpairM64 env A B w := by
  rw [old_genMatpair64_eq]

example : old.isequalM64 exA64 exA64 = .ok 1 ∧ old.isequalM64 exA64 exB64 = .ok 0 := by decide +kernel
example : old.isequalV64 exX64 exX64 = .ok 1 := by decide +kernel

/-- C54: the two versions of `genaffinepairM64` choose the same matrices; the older one may choose other vectors, but
its two results are inverse to each other as well. -/
theorem C54_genaffinepairM64 (env : Env) (f0 g0 : Aff64) (w : World) :
    ∃ f g w' f' g' w'', old.genaffinepairM64 env f0 g0 w = .ok ((f, g), w') ∧
      genaffinepairM64 env f0 g0 w = .ok ((f', g'), w'') ∧ f.Mat = f'.Mat ∧ g.Mat = g'.Mat ∧
      ∀ (x : BitVec 64),
        (∃ y, affineU64 env f x = .ok y ∧ affineU64 env g y = .ok x) ∧
        (∃ y, affineU64 env g x = .ok y ∧ affineU64 env f y = .ok x) := by
  obtain ⟨⟨⟨A, B⟩, w1⟩, h, hAB, -⟩ := genMatpairM64_ok env f0.Mat g0.Mat w
  obtain ⟨⟨v, w2⟩, r⟩ : ∃ p, old.randV64 env f0.Vec w1 = .ok p := ⟨_, old_randV64_run env f0.Vec w1⟩
  obtain ⟨⟨v', w2'⟩, r'⟩ : ∃ p, randV64 env f0.Vec w1 = .ok p := ⟨_, randV64_run env f0.Vec w1⟩
  obtain ⟨u, hu, hv⟩ := MatMulVecM64_ok env B v g0.Vec
  obtain ⟨u', hu', -⟩ := MatMulVecM64_ok env B v' g0.Vec
  refine ⟨⟨A, v⟩, ⟨B, u⟩, w2, ⟨A, v'⟩, ⟨B, u'⟩, w2', ?_, ?_, rfl, rfl, ?_⟩
  · unfold old.genaffinepairM64
    rw [old_genMatpair64_eq, CM_bind_run h]
    simp only
    rw [CM_bind_run r]
    exact CM_bind_run (liftC_run _ hu)
  · unfold genaffinepairM64
    rw [CM_bind_run h]
    simp only
    rw [CM_bind_run r']
    exact CM_bind_run (liftC_run _ hu')
  · intro x
    constructor
    · obtain ⟨y, hy, e1⟩ := affineU64_ok env ⟨A, v⟩ x
      obtain ⟨x', hx', e2⟩ := affineU64_ok env ⟨B, u⟩ y
      have e : x' = x := vec64_inj (by rw [e2, e1, hv]; exact aff_cancel (mat_comm hAB) _ _)
      exact ⟨y, hy, e ▸ hx'⟩
    · obtain ⟨y, hy, e1⟩ := affineU64_ok env ⟨B, u⟩ x
      obtain ⟨x', hx', e2⟩ := affineU64_ok env ⟨A, v⟩ y
      have e : x' = x := vec64_inj (by rw [e2, e1, hv]; exact aff_cancel' hAB _ _)
      exact ⟨y, hy, e ▸ hx'⟩

/-- C54: the two versions of `randV64` differ: there is a state in which they return different vectors. -/
theorem C54_randV64_differs : ∃ (env : Env) (w : World) (x y : V64) (w' w'' : World), old.randV64 env exX64 w = .ok (x, w') ∧
    randV64 env exX64 w = .ok (y, w'') ∧ x ≠ y :=
  ⟨exEnv, exWorld, _, _, _, _, old_randV64_run _ _ _, randV64_run _ _ _, by decide +kernel⟩

/-- C54: the older `randV64` is determined by the seed: two runs in states with the same seed and clock reading give the
same vector, whatever the states of the generator and the previous contents. -/
theorem C54_old_randV64_seeded (env env' : Env) (he : env.endian = env'.endian) (X X' : V64) (w w' : World)
    (h : w.randseed ^^^ w.clock w.now = w'.randseed ^^^ w'.clock w'.now) :
    ∃ r v v', old.randV64 env X w = .ok (r, v) ∧ old.randV64 env' X' w' = .ok (r, v') := by
  have hs : GenEq w.seeded w'.seeded := seeded_congr h
  refine ⟨_, _, w'.seeded.adv 4, old_randV64_run env X w, ?_⟩
  · rw [old_randV64_run env' X' w']
    congr 2
    rw [half_congr hs, half_congr hs, half_congr hs, half_congr hs, quad64_congr he]

example : (exWorld.randseed ^^^ exWorld.clock exWorld.now) =
    (⟨5, 99, 1, exWorld.clock, 1, ['a']⟩ : World).randseed ^^^ exWorld.clock 1 := by decide

/-- C54: the older `randV64` obeys the seed; the current one ignores it (C32). -/
theorem C54_old_randV64_uses_seed (env : Env) (he : env.endian = .little) (X : V64) :
    ∃ s t w r r' v v', (do SetRandSeed s; old.randV64 env X) w = .ok (r, v) ∧
      (do SetRandSeed t; old.randV64 env X) w = .ok (r', v') ∧ r ≠ r' := by
  have e : ∀ s w, SetRandSeed s w = .ok ((), { w with randseed := s }) := fun _ _ => rfl
  refine ⟨1, 2, ⟨0, 0, 0, fun _ => 0, 0, []⟩, _, _, _, _, (CM_bind_run (e _ _)).trans (old_randV64_run _ _ _),
    (CM_bind_run (e _ _)).trans (old_randV64_run _ _ _), ?_⟩
  · rw [quad64_congr (env' := ⟨.little, fun _ _ => 0⟩) he, quad64_congr (env' := ⟨.little, fun _ _ => 0⟩) he]
    decide +kernel

/-! ## 128 -/

/-- C54: both versions of `isequalM128` agree. -/
theorem C54_isequalM128 (A B : M128) : old.isequalM128 A B = isequalM128 A B := old_isequalM128_eq A B

/-- C54: both versions of `isequalV128` agree. -/
theorem C54_isequalV128 (x y : V128) : old.isequalV128 x y = isequalV128 x y := old_isequalV128_eq x y

/-- C54: both versions of `MattransM128` agree, whatever the outputs and the stack contained before. -/
theorem C54_MattransM128 (env : Env) (A T0 T1 : M128) : old.MattransM128 A T0 = MattransM128 env A T1 :=
  old_Mattrans128_eq env A T0 T1

/-- C54: both versions of `MatMulMatM128` agree. -/
theorem C54_MatMulMatM128 (env : Env) (A B C0 : M128) : old.MatMulMatM128 env A B C0 = MatMulMatM128 env A B C0 :=
  old_MatMulMat128_eq env A B C0

/-- C54: both versions of `affinemixM128` agree. -/
theorem C54_affinemixM128 (env : Env) (f g m : Aff128) : old.affinemixM128 env f g m = affinemixM128 env f g m :=
  old_affinemix128_eq env f g m

/-- C54: both versions of `genMatpairM128` return the same pair and leave the same state behind. -/
theorem C54_genMatpairM128 (env : Env) (A B : M128) (w : World) : old.genMatpairM128 env A B w = genMatpairM128 env A B w := by
  rw [old_genMatpair128_eq]

example : old.isequalM128 exA128 exA128 = .ok 1 ∧ old.isequalM128 exA128 exB128 = .ok 0 := by decide +kernel
example : old.isequalV128 exX128 exX128 = .ok 1 := by decide +kernel

/-- C54: the two versions of `genaffinepairM128` choose the same matrices; the older one may choose other vectors, but
its two results are inverse to each other as well. -/
theorem C54_genaffinepairM128 (env : Env) (f0 g0 : Aff128) (w : World) :
    ∃ f g w' f' g' w'', old.genaffinepairM128 env f0 g0 w = .ok ((f, g), w') ∧
      genaffinepairM128 env f0 g0 w = .ok ((f', g'), w'') ∧ f.Mat = f'.Mat ∧ g.Mat = g'.Mat ∧
      ∀ (x : Vector (BitVec 64) 2) (z1 z2 z3 z4 : Vector (BitVec 64) 2),
        (∃ y, affineU128 env f x z1 = .ok y ∧ affineU128 env g y z2 = .ok x) ∧
        (∃ y, affineU128 env g x z3 = .ok y ∧ affineU128 env f y z4 = .ok x) := by
  obtain ⟨⟨⟨A, B⟩, w1⟩, h, hAB, -⟩ := genMatpairM128_ok env f0.Mat g0.Mat w
  obtain ⟨⟨v, w2⟩, r⟩ : ∃ p, old.randV128 env f0.Vec w1 = .ok p := ⟨_, old_randV128_run env f0.Vec w1⟩
  obtain ⟨⟨v', w2'⟩, r'⟩ : ∃ p, randV128 env f0.Vec w1 = .ok p := ⟨_, randV128_run env f0.Vec w1⟩
  obtain ⟨u, hu, hv⟩ := MatMulVecM128_ok env B v g0.Vec
  obtain ⟨u', hu', -⟩ := MatMulVecM128_ok env B v' g0.Vec
  refine ⟨⟨A, v⟩, ⟨B, u⟩, w2, ⟨A, v'⟩, ⟨B, u'⟩, w2', ?_, ?_, rfl, rfl, ?_⟩
  · unfold old.genaffinepairM128
    rw [old_genMatpair128_eq, CM_bind_run h]
    simp only
    rw [CM_bind_run r]
    exact CM_bind_run (liftC_run _ hu)
  · unfold genaffinepairM128
    rw [CM_bind_run h]
    simp only
    rw [CM_bind_run r']
    exact CM_bind_run (liftC_run _ hu')
  · intro x z1 z2 z3 z4
    constructor
    · obtain ⟨y, hy, e1⟩ := affineU128_ok env ⟨A, v⟩ x z1
      obtain ⟨x', hx', e2⟩ := affineU128_ok env ⟨B, u⟩ y z2
      have e : x' = x := vec128_inj (by rw [e2, e1, hv]; exact aff_cancel (mat_comm hAB) _ _)
      exact ⟨y, hy, e ▸ hx'⟩
    · obtain ⟨y, hy, e1⟩ := affineU128_ok env ⟨B, u⟩ x z3
      obtain ⟨x', hx', e2⟩ := affineU128_ok env ⟨A, v⟩ y z4
      have e : x' = x := vec128_inj (by rw [e2, e1, hv]; exact aff_cancel' hAB _ _)
      exact ⟨y, hy, e ▸ hx'⟩

/-- C54: the two versions of `randV128` differ: there is a state in which they return different vectors. -/
theorem C54_randV128_differs : ∃ (env : Env) (w : World) (x y : V128) (w' w'' : World), old.randV128 env exX128 w = .ok (x, w') ∧
    randV128 env exX128 w = .ok (y, w'') ∧ x ≠ y :=
  ⟨exEnv, exWorld, _, _, _, _, old_randV128_run _ _ _, randV128_run _ _ _, by decide +kernel⟩

/-- C54: the older `randV128` is determined by the seed: two runs in states with the same seed and clock reading give the
same vector, whatever the states of the generator and the previous contents. -/
theorem C54_old_randV128_seeded (env env' : Env) (he : env.endian = env'.endian) (X X' : V128) (w w' : World)
    (h : w.randseed ^^^ w.clock w.now = w'.randseed ^^^ w'.clock w'.now) :
    ∃ r v v', old.randV128 env X w = .ok (r, v) ∧ old.randV128 env' X' w' = .ok (r, v') := by
  have hs : GenEq w.seeded w'.seeded := seeded_congr h
  refine ⟨_, _, w'.seeded.adv 8, old_randV128_run env X w, ?_⟩
  · rw [old_randV128_run env' X' w']
    congr 2
    rw [half_congr hs 0, half_congr hs 1, half_congr hs 2, half_congr hs 3, half_congr hs 4, half_congr hs 5, half_congr hs 6, half_congr hs 7, quad64_congr he, quad64_congr he]

example : (exWorld.randseed ^^^ exWorld.clock exWorld.now) =
    (⟨5, 99, 1, exWorld.clock, 1, ['a']⟩ : World).randseed ^^^ exWorld.clock 1 := by decide

end WB
