import Verif.Proof.Rel
import Verif.Proof.Inj

/-!
# The generators depend only on the seed (helper lemmas; written by tools/gen_rel.py)
-/
namespace WB

theorem ident_congr {α β : Type} {m : α → β} (hm : ∀ a b, m a = m b → a = b) {x y : C α} {u : β}
    (hx : Ok x (fun a => m a = u)) (hy : Ok y (fun a => m a = u)) : ∃ a, x = .ok a ∧ y = .ok a := by
  obtain ⟨a, rfl, ha⟩ := hx
  obtain ⟨b, rfl, hb⟩ := hy
  exact ⟨a, rfl, by rw [hm a b (ha.trans hb.symm)]⟩

theorem RelC.run {α β γ δ : Type} {R : γ × World → δ × World → Prop} {x : CM α} {y : CM β}
    {f : α → CM γ} {g : β → CM δ} {w w' v v' : World} {a : α} {b : β}
    (hx : x w = .ok (a, v)) (hy : y w' = .ok (b, v')) (h : RelC R (f a v) (g b v')) :
    RelC R ((x >>= f) w) ((y >>= g) w') := by
  rw [CM_bind_run hx, CM_bind_run hy]; exact h

theorem RelC.lift {α β γ δ : Type} {R : γ × World → δ × World → Prop} {x : C α} {y : C β}
    {f : α → CM γ} {g : β → CM δ} {w w' : World} {a : α} {b : β}
    (hx : x = .ok a) (hy : y = .ok b) (h : RelC R (f a w) (g b w')) :
    RelC R ((liftC x >>= f) w) ((liftC y >>= g) w') :=
  RelC.run (liftC_run _ hx) (liftC_run _ hy) h

theorem randM4_rel (M M' : M4) {w w' : World}
    (h : seedOf w = seedOf w') : ∃ T v v', randM4 M w = .ok (T, v) ∧
      randM4 M' w' = .ok (T, v') ∧ GenEq v v' := by
  have hs := seeded_congr h
  refine ⟨_, _, _, randM4_run M w, (randM4_run M' w').trans
    (congrArg (fun f => Except.ok (Vector.ofFn f, _)) (funext fun i => ?_)), adv_congr hs 4⟩
  rw [draw_congr hs]

theorem randV4_rel (V V' : V4) {w w' : World}
    (h : seedOf w = seedOf w') : ∃ T v v', randV4 V w = .ok (T, v) ∧
      randV4 V' w' = .ok (T, v') ∧ GenEq v v' := by
  have hs := seeded_congr h
  refine ⟨_, _, _, randV4_run V w, (randV4_run V' w').trans ?_, adv_congr hs 1⟩
  rw [draw_congr hs]

theorem genMatpairM4_rel (env env' : Env) (A B A' B' : M4)
    {w w' : World} (h : seedOf w.seeded = seedOf w'.seeded) :
    RelC (fun p q => p.1 = q.1 ∧ GenEq p.2 q.2) (genMatpairM4 env A B w)
      (genMatpairM4 env' A' B' w') := by
  obtain ⟨T, v, v', e, e', hv⟩ := randM4_rel (env.junkArr 8 4) (env'.junkArr 8 4) h
  unfold genMatpairM4
  refine RelC.run (reseed_run' w) (reseed_run' w') ?_
  refine RelC.lift (identityM4_eq A) (identityM4_eq A') ?_
  refine RelC.lift (identityM4_eq B) (identityM4_eq B') ?_
  refine RelC.run e e' ?_
  refine RelC.lift (copyM4_eq T _) (copyM4_eq T _) ?_
  refine RelM.run ?_ hv
  refine RelM.bind (R := GR) (RelM.forUp (GR_init _ _ _ _)
    fun i _ _ s s' h => genStep_rel 4 (opsS idM4) i h) ?_
  intro s0 s0' h0
  refine RelM.liftC ?_
  rw [h0.2.2.2.1]
  refine RelC.ite ?_ ?_
  · refine RelC.bind (R := GR) (RelC.forDown h0
      fun i _ _ s s' h => genBack_rel (opsS idM4) i h) ?_
    intro t0 t0' g0
    refine RelC.bind (replay_rel (opsS idM4) g0 _) ?_
    rintro M _ rfl
    rw [g0.2.1]
    exact RelC.refl _
  · rw [h0.1, h0.2.1]
    refine RelC.bind_same fun _ => ?_
    rw [copyM4_eq]
    exact RelC.refl _

theorem randM8_rel (M M' : M8) {w w' : World}
    (h : seedOf w = seedOf w') : ∃ T v v', randM8 M w = .ok (T, v) ∧
      randM8 M' w' = .ok (T, v') ∧ GenEq v v' := by
  have hs := seeded_congr h
  refine ⟨_, _, _, randM8_run M w, (randM8_run M' w').trans
    (congrArg (fun f => Except.ok (Vector.ofFn f, _)) (funext fun i => ?_)), adv_congr hs 8⟩
  rw [draw_congr hs]

theorem randV8_rel (V V' : V8) {w w' : World}
    (h : seedOf w = seedOf w') : ∃ T v v', randV8 V w = .ok (T, v) ∧
      randV8 V' w' = .ok (T, v') ∧ GenEq v v' := by
  have hs := seeded_congr h
  refine ⟨_, _, _, randV8_run V w, (randV8_run V' w').trans ?_, adv_congr hs 1⟩
  rw [draw_congr hs]

theorem genMatpairM8_rel (env env' : Env) (A B A' B' : M8)
    {w w' : World} (h : seedOf w.seeded = seedOf w'.seeded) :
    RelC (fun p q => p.1 = q.1 ∧ GenEq p.2 q.2) (genMatpairM8 env A B w)
      (genMatpairM8 env' A' B' w') := by
  obtain ⟨T, v, v', e, e', hv⟩ := randM8_rel (env.junkArr 8 8) (env'.junkArr 8 8) h
  unfold genMatpairM8
  refine RelC.run (reseed_run' w) (reseed_run' w') ?_
  refine RelC.lift (identityM8_eq A) (identityM8_eq A') ?_
  refine RelC.lift (identityM8_eq B) (identityM8_eq B') ?_
  refine RelC.run e e' ?_
  refine RelC.lift (copyM8_eq T _) (copyM8_eq T _) ?_
  refine RelM.run ?_ hv
  refine RelM.bind (R := GR) (RelM.forUp (GR_init _ _ _ _)
    fun i _ _ s s' h => genStep_rel 8 (opsS idM8) i h) ?_
  intro s0 s0' h0
  refine RelM.liftC ?_
  rw [h0.2.2.2.1]
  refine RelC.ite ?_ ?_
  · refine RelC.bind (R := GR) (RelC.forDown h0
      fun i _ _ s s' h => genBack_rel (opsS idM8) i h) ?_
    intro t0 t0' g0
    refine RelC.bind (replay_rel (opsS idM8) g0 _) ?_
    rintro M _ rfl
    rw [g0.2.1]
    exact RelC.refl _
  · rw [h0.1, h0.2.1]
    refine RelC.bind_same fun _ => ?_
    rw [copyM8_eq]
    exact RelC.refl _

theorem randM16_rel (M M' : M16) {w w' : World}
    (h : seedOf w = seedOf w') : ∃ T v v', randM16 M w = .ok (T, v) ∧
      randM16 M' w' = .ok (T, v') ∧ GenEq v v' := by
  have hs := seeded_congr h
  refine ⟨_, _, _, randM16_run M w, (randM16_run M' w').trans
    (congrArg (fun f => Except.ok (Vector.ofFn f, _)) (funext fun i => ?_)), adv_congr hs 16⟩
  rw [draw_congr hs]

theorem randV16_rel (V V' : V16) {w w' : World}
    (h : seedOf w = seedOf w') : ∃ T v v', randV16 V w = .ok (T, v) ∧
      randV16 V' w' = .ok (T, v') ∧ GenEq v v' := by
  have hs := seeded_congr h
  refine ⟨_, _, _, randV16_run V w, (randV16_run V' w').trans ?_, adv_congr hs 1⟩
  rw [draw_congr hs]

theorem genMatpairM16_rel (env env' : Env) (A B A' B' : M16)
    {w w' : World} (h : seedOf w.seeded = seedOf w'.seeded) :
    RelC (fun p q => p.1 = q.1 ∧ GenEq p.2 q.2) (genMatpairM16 env A B w)
      (genMatpairM16 env' A' B' w') := by
  obtain ⟨T, v, v', e, e', hv⟩ := randM16_rel (env.junkArr 16 16) (env'.junkArr 16 16) h
  unfold genMatpairM16
  refine RelC.run (reseed_run' w) (reseed_run' w') ?_
  refine RelC.lift (identityM16_eq A) (identityM16_eq A') ?_
  refine RelC.lift (identityM16_eq B) (identityM16_eq B') ?_
  refine RelC.run e e' ?_
  refine RelC.lift (copyM16_eq T _) (copyM16_eq T _) ?_
  refine RelM.run ?_ hv
  refine RelM.bind (R := GR) (RelM.forUp (GR_init _ _ _ _)
    fun i _ _ s s' h => genStep_rel 16 (opsS idM16) i h) ?_
  intro s0 s0' h0
  refine RelM.liftC ?_
  rw [h0.2.2.2.1]
  refine RelC.ite ?_ ?_
  · refine RelC.bind (R := GR) (RelC.forDown h0
      fun i _ _ s s' h => genBack_rel (opsS idM16) i h) ?_
    intro t0 t0' g0
    refine RelC.bind (replay_rel (opsS idM16) g0 _) ?_
    rintro M _ rfl
    rw [g0.2.1]
    exact RelC.refl _
  · rw [h0.1, h0.2.1]
    refine RelC.bind_same fun _ => ?_
    rw [copyM16_eq]
    exact RelC.refl _

theorem randM32_rel (M M' : M32) {w w' : World}
    (h : seedOf w = seedOf w') : ∃ T v v', randM32 M w = .ok (T, v) ∧
      randM32 M' w' = .ok (T, v') ∧ GenEq v v' := by
  have hs := seeded_congr h
  refine ⟨_, _, _, randM32_run M w, (randM32_run M' w').trans
    (congrArg (fun f => Except.ok (Vector.ofFn f, _)) (funext fun i => ?_)), adv_congr hs 32⟩
  rw [draw_congr hs]

theorem randV32_rel (V V' : V32) {w w' : World}
    (h : seedOf w = seedOf w') : ∃ T v v', randV32 V w = .ok (T, v) ∧
      randV32 V' w' = .ok (T, v') ∧ GenEq v v' := by
  have hs := seeded_congr h
  refine ⟨_, _, _, randV32_run V w, (randV32_run V' w').trans ?_, adv_congr hs 1⟩
  rw [draw_congr hs]

theorem genMatpairM32_rel (env env' : Env) (A B A' B' : M32)
    {w w' : World} (h : seedOf w.seeded = seedOf w'.seeded) :
    RelC (fun p q => p.1 = q.1 ∧ GenEq p.2 q.2) (genMatpairM32 env A B w)
      (genMatpairM32 env' A' B' w') := by
  obtain ⟨T, v, v', e, e', hv⟩ := randM32_rel (env.junkArr 32 32) (env'.junkArr 32 32) h
  unfold genMatpairM32
  refine RelC.run (reseed_run' w) (reseed_run' w') ?_
  refine RelC.lift (identityM32_eq A) (identityM32_eq A') ?_
  refine RelC.lift (identityM32_eq B) (identityM32_eq B') ?_
  refine RelC.run e e' ?_
  refine RelC.lift (copyM32_eq T _) (copyM32_eq T _) ?_
  refine RelM.run ?_ hv
  refine RelM.bind (R := GR) (RelM.forUp (GR_init _ _ _ _)
    fun i _ _ s s' h => genStep_rel 32 (opsS idM32) i h) ?_
  intro s0 s0' h0
  refine RelM.liftC ?_
  rw [h0.2.2.2.1]
  refine RelC.ite ?_ ?_
  · refine RelC.bind (R := GR) (RelC.forDown h0
      fun i _ _ s s' h => genBack_rel (opsS idM32) i h) ?_
    intro t0 t0' g0
    refine RelC.bind (replay_rel (opsS idM32) g0 _) ?_
    rintro M _ rfl
    rw [g0.2.1]
    exact RelC.refl _
  · rw [h0.1, h0.2.1]
    refine RelC.bind_same fun _ => ?_
    rw [copyM32_eq]
    exact RelC.refl _

theorem randM64_rel {env env' : Env} (he : env.endian = env'.endian) (M M' : M64) {w w' : World}
    (h : seedOf w = seedOf w') : ∃ T v v', randM64 env M w = .ok (T, v) ∧
      randM64 env' M' w' = .ok (T, v') ∧ GenEq v v' := by
  have hs := seeded_congr h
  refine ⟨_, _, _, randM64_run env M w, (randM64_run env' M' w').trans
    (congrArg (fun f => Except.ok (Vector.ofFn f, _)) (funext fun i => ?_)), adv_congr hs 128⟩
  rw [word_congr he (adv_congr hs _) 0]

theorem randV64_rel {env env' : Env} (he : env.endian = env'.endian) (V V' : V64) {w w' : World}
    (h : GenEq w w') : ∃ T v v', randV64 env V w = .ok (T, v) ∧
      randV64 env' V' w' = .ok (T, v') ∧ GenEq v v' := by
  refine ⟨_, _, _, randV64_run env V w, (randV64_run env' V' w').trans ?_, adv_congr h 2⟩
  rw [word_congr he h 0]

theorem genMatpairM64_rel {env env' : Env} (he : env.endian = env'.endian) (A B A' B' : M64)
    {w w' : World} (h : seedOf w.seeded = seedOf w'.seeded) :
    RelC (fun p q => p.1 = q.1 ∧ GenEq p.2 q.2) (genMatpairM64 env A B w)
      (genMatpairM64 env' A' B' w') := by
  obtain ⟨T, v, v', e, e', hv⟩ := randM64_rel he (env.junkArr 64 64) (env'.junkArr 64 64) h
  unfold genMatpairM64
  refine RelC.run (reseed_run' w) (reseed_run' w') ?_
  refine RelC.lift (identityM64_eq A) (identityM64_eq A') ?_
  refine RelC.lift (identityM64_eq B) (identityM64_eq B') ?_
  refine RelC.run e e' ?_
  refine RelC.lift (copyM64_eq T _) (copyM64_eq T _) ?_
  refine RelM.run ?_ hv
  refine RelM.bind (R := GR) (RelM.forUp (GR_init _ _ _ _)
    fun i _ _ s s' h => genStep_rel 64 (opsS idM64) i h) ?_
  intro s0 s0' h0
  refine RelM.liftC ?_
  rw [h0.2.2.2.1]
  refine RelC.ite ?_ ?_
  · refine RelC.bind (R := GR) (RelC.forDown h0
      fun i _ _ s s' h => genBack_rel (opsS idM64) i h) ?_
    intro t0 t0' g0
    refine RelC.bind (replay_rel (opsS idM64) g0 _) ?_
    rintro M _ rfl
    rw [g0.2.1]
    exact RelC.refl _
  · rw [h0.1, h0.2.1]
    refine RelC.bind_same fun _ => ?_
    rw [copyM64_eq]
    exact RelC.refl _

theorem randM128_rel {env env' : Env} (he : env.endian = env'.endian) (M M' : M128) {w w' : World}
    (h : seedOf w = seedOf w') : ∃ T v v', randM128 env M w = .ok (T, v) ∧
      randM128 env' M' w' = .ok (T, v') ∧ GenEq v v' := by
  have hs := seeded_congr h
  refine ⟨_, _, _, randM128_run env M w, (randM128_run env' M' w').trans
    (congrArg (fun f => Except.ok (Vector.ofFn f, _)) (funext fun i => ?_)), adv_congr hs 512⟩
  rw [word_congr he (adv_congr hs _) 0, word_congr he (adv_congr hs _) 1]

theorem randV128_rel {env env' : Env} (he : env.endian = env'.endian) (V V' : V128) {w w' : World}
    (h : seedOf w = seedOf w') : ∃ T v v', randV128 env V w = .ok (T, v) ∧
      randV128 env' V' w' = .ok (T, v') ∧ GenEq v v' := by
  have hs := seeded_congr h
  refine ⟨_, _, _, randV128_run env V w, (randV128_run env' V' w').trans ?_, adv_congr hs 4⟩
  rw [word_congr he hs 0, word_congr he hs 1]

abbrev opsL128_0 : Ops M128 := opsW (n := 128) (l := 2) idM64 0 0 [0, 1] [0, 1]

abbrev opsL128_1 : Ops M128 := opsW (n := 128) (l := 2) idM64 1 64 [1] [0, 1]

theorem genMatpairM128_rel {env env' : Env} (he : env.endian = env'.endian) (A B A' B' : M128)
    {w w' : World} (h : seedOf w.seeded = seedOf w'.seeded) :
    RelC (fun p q => p.1 = q.1 ∧ GenEq p.2 q.2) (genMatpairM128 env A B w)
      (genMatpairM128 env' A' B' w') := by
  obtain ⟨T, v, v', e, e', hv⟩ := randM128_rel he (env.junkArr2 64 2 128) (env'.junkArr2 64 2 128) h
  unfold genMatpairM128
  refine RelC.run (reseed_run' w) (reseed_run' w') ?_
  obtain ⟨IA, hA, hA'⟩ := ident_congr (fun _ _ => mat128_inj) (identityM128_ok A) (identityM128_ok A')
  obtain ⟨IB, hB, hB'⟩ := ident_congr (fun _ _ => mat128_inj) (identityM128_ok B) (identityM128_ok B')
  refine RelC.lift hA hA' ?_
  refine RelC.lift hB hB' ?_
  refine RelC.run e e' ?_
  refine RelC.lift (copyM128_eq T _) (copyM128_eq T _) ?_
  refine RelM.run ?_ hv
  refine RelM.bind (R := GR) (RelM.forUp (GR_init _ _ _ _)
    fun i _ _ s s' h => genStepNG_rel 128 opsL128_0 i h) ?_
  intro s0 s0' h0
  refine RelM.bind (R := GR) (RelM.forUp h0
    fun i _ _ s s' h => genStep_rel 128 opsL128_1 i h) ?_
  intro s1 s1' h1
  refine RelM.liftC ?_
  rw [h1.2.2.2.1]
  refine RelC.ite ?_ ?_
  · refine RelC.bind (R := GR) (RelC.forDown h1
      fun i _ _ s s' h => genBack_rel opsL128_1 i h) ?_
    intro t1 t1' g1
    refine RelC.bind (R := GR) (RelC.forDown g1
      fun i _ _ s s' h => genBack_rel opsL128_0 i h) ?_
    intro t0 t0' g0
    refine RelC.bind (replay_rel opsL128_0 g0 _) ?_
    rintro M _ rfl
    rw [g0.2.1]
    exact RelC.refl _
  · rw [h1.1, h1.2.1]
    refine RelC.bind_same fun _ => ?_
    refine RelC.bind_same fun _ => ?_
    rw [copyM128_eq]
    exact RelC.refl _

theorem randM256_rel {env env' : Env} (he : env.endian = env'.endian) (M M' : M256) {w w' : World}
    (h : seedOf w = seedOf w') : ∃ T v v', randM256 env M w = .ok (T, v) ∧
      randM256 env' M' w' = .ok (T, v') ∧ GenEq v v' := by
  have hs := seeded_congr h
  refine ⟨_, _, _, randM256_run env M w, (randM256_run env' M' w').trans
    (congrArg (fun f => Except.ok (Vector.ofFn f, _)) (funext fun i => ?_)), adv_congr hs 2048⟩
  rw [word_congr he (adv_congr hs _) 0, word_congr he (adv_congr hs _) 1, word_congr he (adv_congr hs _) 2, word_congr he (adv_congr hs _) 3]

theorem randV256_rel {env env' : Env} (he : env.endian = env'.endian) (V V' : V256) {w w' : World}
    (h : seedOf w = seedOf w') : ∃ T v v', randV256 env V w = .ok (T, v) ∧
      randV256 env' V' w' = .ok (T, v') ∧ GenEq v v' := by
  have hs := seeded_congr h
  refine ⟨_, _, _, randV256_run env V w, (randV256_run env' V' w').trans ?_, adv_congr hs 8⟩
  rw [word_congr he hs 0, word_congr he hs 1, word_congr he hs 2, word_congr he hs 3]

abbrev opsL256_0 : Ops M256 := opsW (n := 256) (l := 4) idM64 0 0 [0, 1, 2, 3] [0, 1, 2, 3]

abbrev opsL256_1 : Ops M256 := opsW (n := 256) (l := 4) idM64 1 64 [1, 2, 3] [0, 1, 2, 3]

abbrev opsL256_2 : Ops M256 := opsW (n := 256) (l := 4) idM64 2 128 [2, 3] [0, 1, 2, 3]

abbrev opsL256_3 : Ops M256 := opsW (n := 256) (l := 4) idM64 3 192 [3] [0, 1, 2, 3]

theorem genMatpairM256_rel {env env' : Env} (he : env.endian = env'.endian) (A B A' B' : M256)
    {w w' : World} (h : seedOf w.seeded = seedOf w'.seeded) :
    RelC (fun p q => p.1 = q.1 ∧ GenEq p.2 q.2) (genMatpairM256 env A B w)
      (genMatpairM256 env' A' B' w') := by
  obtain ⟨T, v, v', e, e', hv⟩ := randM256_rel he (env.junkArr2 64 4 256) (env'.junkArr2 64 4 256) h
  unfold genMatpairM256
  refine RelC.run (reseed_run' w) (reseed_run' w') ?_
  obtain ⟨IA, hA, hA'⟩ := ident_congr (fun _ _ => mat256_inj) (identityM256_ok A) (identityM256_ok A')
  obtain ⟨IB, hB, hB'⟩ := ident_congr (fun _ _ => mat256_inj) (identityM256_ok B) (identityM256_ok B')
  refine RelC.lift hA hA' ?_
  refine RelC.lift hB hB' ?_
  refine RelC.run e e' ?_
  refine RelC.lift (copyM256_eq T _) (copyM256_eq T _) ?_
  refine RelM.run ?_ hv
  refine RelM.bind (R := GR) (RelM.forUp (GR_init _ _ _ _)
    fun i _ _ s s' h => genStepNG_rel 256 opsL256_0 i h) ?_
  intro s0 s0' h0
  refine RelM.bind (R := GR) (RelM.forUp h0
    fun i _ _ s s' h => genStepNG_rel 256 opsL256_1 i h) ?_
  intro s1 s1' h1
  refine RelM.bind (R := GR) (RelM.forUp h1
    fun i _ _ s s' h => genStepNG_rel 256 opsL256_2 i h) ?_
  intro s2 s2' h2
  refine RelM.bind (R := GR) (RelM.forUp h2
    fun i _ _ s s' h => genStep_rel 256 opsL256_3 i h) ?_
  intro s3 s3' h3
  refine RelM.liftC ?_
  rw [h3.2.2.2.1]
  refine RelC.ite ?_ ?_
  · refine RelC.bind (R := GR) (RelC.forDown h3
      fun i _ _ s s' h => genBack_rel opsL256_3 i h) ?_
    intro t3 t3' g3
    refine RelC.bind (R := GR) (RelC.forDown g3
      fun i _ _ s s' h => genBack_rel opsL256_2 i h) ?_
    intro t2 t2' g2
    refine RelC.bind (R := GR) (RelC.forDown g2
      fun i _ _ s s' h => genBack_rel opsL256_1 i h) ?_
    intro t1 t1' g1
    refine RelC.bind (R := GR) (RelC.forDown g1
      fun i _ _ s s' h => genBack_rel opsL256_0 i h) ?_
    intro t0 t0' g0
    refine RelC.bind (replay_rel opsL256_0 g0 _) ?_
    rintro M _ rfl
    rw [g0.2.1]
    exact RelC.refl _
  · rw [h3.1, h3.2.1]
    refine RelC.bind_same fun _ => ?_
    refine RelC.bind_same fun _ => ?_
    refine RelC.bind_same fun _ => ?_
    refine RelC.bind_same fun _ => ?_
    rw [copyM256_eq]
    exact RelC.refl _

end WB
