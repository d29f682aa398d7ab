import Verif.Proof.SeedWit
import Verif.Proof.Reject
import Verif.Model.WBGE
import Verif.Prop.C12
import Verif.Prop.C13

/-!
# C58 — rejection sampling

`/repo/test/WBGEMethod_test.c` draws random matrices until one is invertible.
Generated by `tools/gen_c58.py`.
-/
namespace WB
open Matrix

/-- The state of the seed counter and of the clock after `i` further seedings. -/
def later (w : World) (i : Nat) : World :=
  { w with randseed := w.randseed + BitVec.ofNat 32 i, now := w.now + i }

theorem seedOf_later (w : World) (i : Nat) : seedOf (later w i) = seedAt w i := rfl

theorem later_seeded (K : Nat) (w : World) (i : Nat) :
    (later w i).seeded.adv K = after K w (i + 1) := by
  have key : ∀ j, (after K w j).seeded = (later w j).seeded := by
    intro j
    induction j with
    | zero => simp [after, later]
    | succ j ih =>
      show ((after K w j).seeded.adv K).seeded = _
      rw [ih]
      unfold World.seeded World.adv later seedOf
      simp only [BitVec.ofNat_add, BitVec.add_assoc, Nat.add_assoc]
  show _ = (after K w i).seeded.adv K
  rw [key]

/-- A world in which every seeding uses the seed 1. -/
def exStuck : World := ⟨0, 0, 0, fun k => BitVec.ofNat 32 k ^^^ 1#32, 0, []⟩

theorem exStuck_seed (i : Nat) : seedAt exStuck i = 1#32 := by
  show (0#32 + BitVec.ofNat 32 i) ^^^ (BitVec.ofNat 32 (0 + i) ^^^ 1#32) = 1#32
  rw [Nat.zero_add, BitVec.zero_add, ← BitVec.xor_assoc, BitVec.xor_self, BitVec.zero_xor]

theorem gen4_clean (s : BitVec 32) : CleanM4 (gen4 s) := by
  intro i
  simp only [gen4, Fin.getElem_fin, Vector.getElem_ofFn]
  unfold Clean4
  have h : ((drawS s i &&& 0x0f).setWidth 8).toNat ≤ (drawS s i &&& 0x0f#32).toNat := by
    rw [BitVec.toNat_setWidth]; exact Nat.mod_le _ _
  have h' : (drawS s i &&& 0x0f#32).toNat ≤ 15 := by
    rw [BitVec.toNat_and]; exact Nat.and_le_right
  exact lt_of_le_of_lt (h.trans h') (by norm_num)

/-! ## 4 -/

/-- C58: `InvTMatM4` returns the first invertible matrix among those that `randM4` stores in
consecutive calls; as long as there is none it goes on. -/
theorem C58_InvTMatM4 (env : Env) (fuel : Nat) (Mat : M4) (w : World) :
    (∃ i < fuel, ∃ A w', randM4 Mat (later w i) = .ok (A, w') ∧ IsUnit (mat4 A) ∧
      (∀ j < i, ∃ B w'', randM4 Mat (later w j) = .ok (B, w'') ∧ ¬ IsUnit (mat4 B)) ∧
      wbge.InvTMatM4 env fuel Mat w = .ok (A, w')) ∨
    ((∀ j < fuel, ∃ B w'', randM4 Mat (later w j) = .ok (B, w'') ∧ ¬ IsUnit (mat4 B)) ∧
      wbge.InvTMatM4 env fuel Mat w = .error .diverge) := by
  classical
  have hg : ∀ j, randM4 Mat (later w j) = .ok (gen4 (seedAt w j), after 4 w (j + 1)) := by
    intro j; rw [randM4_gen, seedOf_later, later_seeded]
  have hc : ∀ s, (do pure ((← isinvertM4 (gen4 s)) == 0) : C Bool) =
      .ok (decide (¬ IsUnit (mat4 (gen4 s)))) := by
    intro s
    rw [C12_isinvertM4 _ (gen4_clean s)]
    by_cases h : IsUnit (mat4 (gen4 s))
    · simp only [h, if_true, not_true_eq_false, decide_false]; rfl
    · simp only [h, if_false, not_false_eq_true, decide_true]; rfl
  have key := reject_run (rand := fun temp => randM4 temp)
    (cond := fun temp => do pure ((← isinvertM4 temp) == 0)) (gen := gen4) (K := 4)
    (bad := fun s => decide (¬ IsUnit (mat4 (gen4 s)))) (fun a w => randM4_gen a w) hc
    (env.junkArr 8 4) w fuel
  have hrun : wbge.InvTMatM4 env fuel Mat w = (do
      let t ← (do
        let t ← randM4 (env.junkArr 8 4)
        whileM (fun temp => do pure ((← isinvertM4 temp) == 0)) (fun temp => randM4 temp) fuel t)
      liftC (copyM4 t Mat) : CM M4) w := by
    unfold wbge.InvTMatM4
    rw [bind_assoc]
  rcases key with ⟨i, hi, hb, hu, hr⟩ | ⟨hb, hr⟩
  · left
    refine ⟨i, hi, _, _, hg i, by simpa using hu, fun j hj => ⟨_, _, hg j, by simpa using hb j hj⟩, ?_⟩
    rw [hrun, CM_bind_run hr, copyM4_eq]
    rfl
  · right
    refine ⟨fun j hj => ⟨_, _, hg j, by simpa using hb j hj⟩, ?_⟩
    rw [hrun]
    exact CM_bind_error hr

/-- C58: `MatrixpairM4` returns what `InvTMatM4` returns together with its inverse. -/
theorem C58_MatrixpairM4 (env : Env) (fuel : Nat) (Mat Mat_inv : M4) (w : World) :
    (∀ A w', wbge.InvTMatM4 env fuel Mat w = .ok (A, w') →
      ∃ B, wbge.MatrixpairM4 env fuel Mat Mat_inv w = .ok ((A, B), w') ∧
        mat4 A * mat4 B = 1 ∧ mat4 B * mat4 A = 1) ∧
    (∀ f, wbge.InvTMatM4 env fuel Mat w = .error f →
      wbge.MatrixpairM4 env fuel Mat Mat_inv w = .error f) := by
  refine ⟨fun A w' h => ?_, fun f h => CM_bind_error h⟩
  have hA : IsUnit (mat4 A) := by
    rcases C58_InvTMatM4 env fuel Mat w with ⟨i, -, A', w'', -, hu, -, h'⟩ | ⟨-, h'⟩
    · rw [h] at h'
      cases h'
      exact hu
    · rw [h] at h'; cases h'
  obtain ⟨B, hB, hAB, hBA, -⟩ := C13_invsM4 A Mat_inv hA
  refine ⟨B, ?_, hAB, hBA⟩
  unfold wbge.MatrixpairM4
  rw [CM_bind_run h, hB, CM_bind_run (liftC_run _ rfl)]
  rfl

/-- C58: if the clock shows the same time during `2^32` successive seedings, however many came
before, `InvTMatM4` returns. -/
theorem C58_InvTMatM4_terminates (env : Env) (Mat : M4) (w : World) (N : Nat) (c : BitVec 32)
    (hc : ∀ k, N ≤ k → k < N + 2 ^ 32 → w.clock (w.now + k) = c) :
    ∃ A w', wbge.InvTMatM4 env (N + 2 ^ 32) Mat w = .ok (A, w') ∧ IsUnit (mat4 A) := by
  rcases C58_InvTMatM4 env (N + 2 ^ 32) Mat w with ⟨i, -, A, w', -, hu, -, h⟩ | ⟨hb, -⟩
  · exact ⟨A, w', h, hu⟩
  · obtain ⟨i, hi, hs⟩ := seedAt_surj w N c 0#32 hc
    obtain ⟨B, w'', h, hn⟩ := hb i hi
    rw [randM4_gen, seedOf_later, hs] at h
    rw [← (Prod.mk.inj (Except.ok.inj h)).1] at hn
    exact absurd (gen4_good) hn

/-- C58: `InvTMatM4` can run forever: if the clock moves in step with the counter every attempt
uses the same seed. -/
theorem C58_InvTMatM4_may_diverge : ∃ w, ∀ env fuel Mat,
    wbge.InvTMatM4 env fuel Mat w = .error .diverge := by
  refine ⟨exStuck, fun env fuel Mat => ?_⟩
  rcases C58_InvTMatM4 env fuel Mat exStuck with ⟨i, -, A, w', h, hu, -, -⟩ | ⟨-, h⟩
  · rw [randM4_gen, seedOf_later, exStuck_seed] at h
    rw [← (Prod.mk.inj (Except.ok.inj h)).1] at hu
    exact absurd hu (gen4_bad)
  · exact h

example (env : Env) : ∃ A w', wbge.InvTMatM4 env (2 + 2 ^ 32) exB4
    { exWorld with clock := fun k => if k < 2 then 7 else 1700000000 } = .ok (A, w') ∧ IsUnit (mat4 A) :=
  C58_InvTMatM4_terminates env exB4 _ 2 1700000000 (fun k h _ => by
    show (if exWorld.now + k < 2 then (7 : BitVec 32) else 1700000000) = _
    rw [if_neg (by omega)])

/-! ## 8 -/

/-- C58: `InvTMatM8` returns the first invertible matrix among those that `randM8` stores in
consecutive calls; as long as there is none it goes on. -/
theorem C58_InvTMatM8 (env : Env) (fuel : Nat) (Mat : M8) (w : World) :
    (∃ i < fuel, ∃ A w', randM8 Mat (later w i) = .ok (A, w') ∧ IsUnit (mat8 A) ∧
      (∀ j < i, ∃ B w'', randM8 Mat (later w j) = .ok (B, w'') ∧ ¬ IsUnit (mat8 B)) ∧
      wbge.InvTMatM8 env fuel Mat w = .ok (A, w')) ∨
    ((∀ j < fuel, ∃ B w'', randM8 Mat (later w j) = .ok (B, w'') ∧ ¬ IsUnit (mat8 B)) ∧
      wbge.InvTMatM8 env fuel Mat w = .error .diverge) := by
  classical
  have hg : ∀ j, randM8 Mat (later w j) = .ok (gen8 (seedAt w j), after 8 w (j + 1)) := by
    intro j; rw [randM8_gen, seedOf_later, later_seeded]
  have hc : ∀ s, (do pure ((← isinvertM8 (gen8 s)) == 0) : C Bool) =
      .ok (decide (¬ IsUnit (mat8 (gen8 s)))) := by
    intro s
    rw [C12_isinvertM8]
    by_cases h : IsUnit (mat8 (gen8 s))
    · simp only [h, if_true, not_true_eq_false, decide_false]; rfl
    · simp only [h, if_false, not_false_eq_true, decide_true]; rfl
  have key := reject_run (rand := fun temp => randM8 temp)
    (cond := fun temp => do pure ((← isinvertM8 temp) == 0)) (gen := gen8) (K := 8)
    (bad := fun s => decide (¬ IsUnit (mat8 (gen8 s)))) (fun a w => randM8_gen a w) hc
    (env.junkArr 8 8) w fuel
  have hrun : wbge.InvTMatM8 env fuel Mat w = (do
      let t ← (do
        let t ← randM8 (env.junkArr 8 8)
        whileM (fun temp => do pure ((← isinvertM8 temp) == 0)) (fun temp => randM8 temp) fuel t)
      liftC (copyM8 t Mat) : CM M8) w := by
    unfold wbge.InvTMatM8
    rw [bind_assoc]
  rcases key with ⟨i, hi, hb, hu, hr⟩ | ⟨hb, hr⟩
  · left
    refine ⟨i, hi, _, _, hg i, by simpa using hu, fun j hj => ⟨_, _, hg j, by simpa using hb j hj⟩, ?_⟩
    rw [hrun, CM_bind_run hr, copyM8_eq]
    rfl
  · right
    refine ⟨fun j hj => ⟨_, _, hg j, by simpa using hb j hj⟩, ?_⟩
    rw [hrun]
    exact CM_bind_error hr

/-- C58: `MatrixpairM8` returns what `InvTMatM8` returns together with its inverse. -/
theorem C58_MatrixpairM8 (env : Env) (fuel : Nat) (Mat Mat_inv : M8) (w : World) :
    (∀ A w', wbge.InvTMatM8 env fuel Mat w = .ok (A, w') →
      ∃ B, wbge.MatrixpairM8 env fuel Mat Mat_inv w = .ok ((A, B), w') ∧
        mat8 A * mat8 B = 1 ∧ mat8 B * mat8 A = 1) ∧
    (∀ f, wbge.InvTMatM8 env fuel Mat w = .error f →
      wbge.MatrixpairM8 env fuel Mat Mat_inv w = .error f) := by
  refine ⟨fun A w' h => ?_, fun f h => CM_bind_error h⟩
  have hA : IsUnit (mat8 A) := by
    rcases C58_InvTMatM8 env fuel Mat w with ⟨i, -, A', w'', -, hu, -, h'⟩ | ⟨-, h'⟩
    · rw [h] at h'
      cases h'
      exact hu
    · rw [h] at h'; cases h'
  obtain ⟨B, hB, hAB, hBA⟩ := C13_invsM8 A Mat_inv hA
  refine ⟨B, ?_, hAB, hBA⟩
  unfold wbge.MatrixpairM8
  rw [CM_bind_run h, hB, CM_bind_run (liftC_run _ rfl)]
  rfl

/-- C58: if the clock shows the same time during `2^32` successive seedings, however many came
before, `InvTMatM8` returns. -/
theorem C58_InvTMatM8_terminates (env : Env) (Mat : M8) (w : World) (N : Nat) (c : BitVec 32)
    (hc : ∀ k, N ≤ k → k < N + 2 ^ 32 → w.clock (w.now + k) = c) :
    ∃ A w', wbge.InvTMatM8 env (N + 2 ^ 32) Mat w = .ok (A, w') ∧ IsUnit (mat8 A) := by
  rcases C58_InvTMatM8 env (N + 2 ^ 32) Mat w with ⟨i, -, A, w', -, hu, -, h⟩ | ⟨hb, -⟩
  · exact ⟨A, w', h, hu⟩
  · obtain ⟨i, hi, hs⟩ := seedAt_surj w N c 2#32 hc
    obtain ⟨B, w'', h, hn⟩ := hb i hi
    rw [randM8_gen, seedOf_later, hs] at h
    rw [← (Prod.mk.inj (Except.ok.inj h)).1] at hn
    exact absurd (gen8_good) hn

/-- C58: `InvTMatM8` can run forever: if the clock moves in step with the counter every attempt
uses the same seed. -/
theorem C58_InvTMatM8_may_diverge : ∃ w, ∀ env fuel Mat,
    wbge.InvTMatM8 env fuel Mat w = .error .diverge := by
  refine ⟨exStuck, fun env fuel Mat => ?_⟩
  rcases C58_InvTMatM8 env fuel Mat exStuck with ⟨i, -, A, w', h, hu, -, -⟩ | ⟨-, h⟩
  · rw [randM8_gen, seedOf_later, exStuck_seed] at h
    rw [← (Prod.mk.inj (Except.ok.inj h)).1] at hu
    exact absurd hu (gen8_bad)
  · exact h

example (env : Env) : ∃ A w', wbge.InvTMatM8 env (2 + 2 ^ 32) exB8
    { exWorld with clock := fun k => if k < 2 then 7 else 1700000000 } = .ok (A, w') ∧ IsUnit (mat8 A) :=
  C58_InvTMatM8_terminates env exB8 _ 2 1700000000 (fun k h _ => by
    show (if exWorld.now + k < 2 then (7 : BitVec 32) else 1700000000) = _
    rw [if_neg (by omega)])

/-! ## 16 -/

/-- C58: `InvTMatM16` returns the first invertible matrix among those that `randM16` stores in
consecutive calls; as long as there is none it goes on. -/
theorem C58_InvTMatM16 (env : Env) (fuel : Nat) (Mat : M16) (w : World) :
    (∃ i < fuel, ∃ A w', randM16 Mat (later w i) = .ok (A, w') ∧ IsUnit (mat16 A) ∧
      (∀ j < i, ∃ B w'', randM16 Mat (later w j) = .ok (B, w'') ∧ ¬ IsUnit (mat16 B)) ∧
      wbge.InvTMatM16 env fuel Mat w = .ok (A, w')) ∨
    ((∀ j < fuel, ∃ B w'', randM16 Mat (later w j) = .ok (B, w'') ∧ ¬ IsUnit (mat16 B)) ∧
      wbge.InvTMatM16 env fuel Mat w = .error .diverge) := by
  classical
  have hg : ∀ j, randM16 Mat (later w j) = .ok (gen16 (seedAt w j), after 16 w (j + 1)) := by
    intro j; rw [randM16_gen, seedOf_later, later_seeded]
  have hc : ∀ s, (do pure ((← isinvertM16 (gen16 s)) == 0) : C Bool) =
      .ok (decide (¬ IsUnit (mat16 (gen16 s)))) := by
    intro s
    rw [C12_isinvertM16]
    by_cases h : IsUnit (mat16 (gen16 s))
    · simp only [h, if_true, not_true_eq_false, decide_false]; rfl
    · simp only [h, if_false, not_false_eq_true, decide_true]; rfl
  have key := reject_run (rand := fun temp => randM16 temp)
    (cond := fun temp => do pure ((← isinvertM16 temp) == 0)) (gen := gen16) (K := 16)
    (bad := fun s => decide (¬ IsUnit (mat16 (gen16 s)))) (fun a w => randM16_gen a w) hc
    (env.junkArr 16 16) w fuel
  have hrun : wbge.InvTMatM16 env fuel Mat w = (do
      let t ← (do
        let t ← randM16 (env.junkArr 16 16)
        whileM (fun temp => do pure ((← isinvertM16 temp) == 0)) (fun temp => randM16 temp) fuel t)
      liftC (copyM16 t Mat) : CM M16) w := by
    unfold wbge.InvTMatM16
    rw [bind_assoc]
  rcases key with ⟨i, hi, hb, hu, hr⟩ | ⟨hb, hr⟩
  · left
    refine ⟨i, hi, _, _, hg i, by simpa using hu, fun j hj => ⟨_, _, hg j, by simpa using hb j hj⟩, ?_⟩
    rw [hrun, CM_bind_run hr, copyM16_eq]
    rfl
  · right
    refine ⟨fun j hj => ⟨_, _, hg j, by simpa using hb j hj⟩, ?_⟩
    rw [hrun]
    exact CM_bind_error hr

/-- C58: `MatrixpairM16` returns what `InvTMatM16` returns together with its inverse. -/
theorem C58_MatrixpairM16 (env : Env) (fuel : Nat) (Mat Mat_inv : M16) (w : World) :
    (∀ A w', wbge.InvTMatM16 env fuel Mat w = .ok (A, w') →
      ∃ B, wbge.MatrixpairM16 env fuel Mat Mat_inv w = .ok ((A, B), w') ∧
        mat16 A * mat16 B = 1 ∧ mat16 B * mat16 A = 1) ∧
    (∀ f, wbge.InvTMatM16 env fuel Mat w = .error f →
      wbge.MatrixpairM16 env fuel Mat Mat_inv w = .error f) := by
  refine ⟨fun A w' h => ?_, fun f h => CM_bind_error h⟩
  have hA : IsUnit (mat16 A) := by
    rcases C58_InvTMatM16 env fuel Mat w with ⟨i, -, A', w'', -, hu, -, h'⟩ | ⟨-, h'⟩
    · rw [h] at h'
      cases h'
      exact hu
    · rw [h] at h'; cases h'
  obtain ⟨B, hB, hAB, hBA⟩ := C13_invsM16 A Mat_inv hA
  refine ⟨B, ?_, hAB, hBA⟩
  unfold wbge.MatrixpairM16
  rw [CM_bind_run h, hB, CM_bind_run (liftC_run _ rfl)]
  rfl

/-- C58: if the clock shows the same time during `2^32` successive seedings, however many came
before, `InvTMatM16` returns. -/
theorem C58_InvTMatM16_terminates (env : Env) (Mat : M16) (w : World) (N : Nat) (c : BitVec 32)
    (hc : ∀ k, N ≤ k → k < N + 2 ^ 32 → w.clock (w.now + k) = c) :
    ∃ A w', wbge.InvTMatM16 env (N + 2 ^ 32) Mat w = .ok (A, w') ∧ IsUnit (mat16 A) := by
  rcases C58_InvTMatM16 env (N + 2 ^ 32) Mat w with ⟨i, -, A, w', -, hu, -, h⟩ | ⟨hb, -⟩
  · exact ⟨A, w', h, hu⟩
  · obtain ⟨i, hi, hs⟩ := seedAt_surj w N c 3#32 hc
    obtain ⟨B, w'', h, hn⟩ := hb i hi
    rw [randM16_gen, seedOf_later, hs] at h
    rw [← (Prod.mk.inj (Except.ok.inj h)).1] at hn
    exact absurd (gen16_good) hn

/-- C58: `InvTMatM16` can run forever: if the clock moves in step with the counter every attempt
uses the same seed. -/
theorem C58_InvTMatM16_may_diverge : ∃ w, ∀ env fuel Mat,
    wbge.InvTMatM16 env fuel Mat w = .error .diverge := by
  refine ⟨exStuck, fun env fuel Mat => ?_⟩
  rcases C58_InvTMatM16 env fuel Mat exStuck with ⟨i, -, A, w', h, hu, -, -⟩ | ⟨-, h⟩
  · rw [randM16_gen, seedOf_later, exStuck_seed] at h
    rw [← (Prod.mk.inj (Except.ok.inj h)).1] at hu
    exact absurd hu (gen16_bad)
  · exact h

example (env : Env) : ∃ A w', wbge.InvTMatM16 env (2 + 2 ^ 32) exB16
    { exWorld with clock := fun k => if k < 2 then 7 else 1700000000 } = .ok (A, w') ∧ IsUnit (mat16 A) :=
  C58_InvTMatM16_terminates env exB16 _ 2 1700000000 (fun k h _ => by
    show (if exWorld.now + k < 2 then (7 : BitVec 32) else 1700000000) = _
    rw [if_neg (by omega)])

/-! ## 32 -/

/-- C58: `InvTMatM32` returns the first invertible matrix among those that `randM32` stores in
consecutive calls; as long as there is none it goes on. -/
theorem C58_InvTMatM32 (env : Env) (fuel : Nat) (Mat : M32) (w : World) :
    (∃ i < fuel, ∃ A w', randM32 Mat (later w i) = .ok (A, w') ∧ IsUnit (mat32 A) ∧
      (∀ j < i, ∃ B w'', randM32 Mat (later w j) = .ok (B, w'') ∧ ¬ IsUnit (mat32 B)) ∧
      wbge.InvTMatM32 env fuel Mat w = .ok (A, w')) ∨
    ((∀ j < fuel, ∃ B w'', randM32 Mat (later w j) = .ok (B, w'') ∧ ¬ IsUnit (mat32 B)) ∧
      wbge.InvTMatM32 env fuel Mat w = .error .diverge) := by
  classical
  have hg : ∀ j, randM32 Mat (later w j) = .ok (gen32 (seedAt w j), after 32 w (j + 1)) := by
    intro j; rw [randM32_gen, seedOf_later, later_seeded]
  have hc : ∀ s, (do pure ((← isinvertM32 (gen32 s)) == 0) : C Bool) =
      .ok (decide (¬ IsUnit (mat32 (gen32 s)))) := by
    intro s
    rw [C12_isinvertM32]
    by_cases h : IsUnit (mat32 (gen32 s))
    · simp only [h, if_true, not_true_eq_false, decide_false]; rfl
    · simp only [h, if_false, not_false_eq_true, decide_true]; rfl
  have key := reject_run (rand := fun temp => randM32 temp)
    (cond := fun temp => do pure ((← isinvertM32 temp) == 0)) (gen := gen32) (K := 32)
    (bad := fun s => decide (¬ IsUnit (mat32 (gen32 s)))) (fun a w => randM32_gen a w) hc
    (env.junkArr 32 32) w fuel
  have hrun : wbge.InvTMatM32 env fuel Mat w = (do
      let t ← (do
        let t ← randM32 (env.junkArr 32 32)
        whileM (fun temp => do pure ((← isinvertM32 temp) == 0)) (fun temp => randM32 temp) fuel t)
      liftC (copyM32 t Mat) : CM M32) w := by
    unfold wbge.InvTMatM32
    rw [bind_assoc]
  rcases key with ⟨i, hi, hb, hu, hr⟩ | ⟨hb, hr⟩
  · left
    refine ⟨i, hi, _, _, hg i, by simpa using hu, fun j hj => ⟨_, _, hg j, by simpa using hb j hj⟩, ?_⟩
    rw [hrun, CM_bind_run hr, copyM32_eq]
    rfl
  · right
    refine ⟨fun j hj => ⟨_, _, hg j, by simpa using hb j hj⟩, ?_⟩
    rw [hrun]
    exact CM_bind_error hr

/-- C58: `MatrixpairM32` returns what `InvTMatM32` returns together with its inverse. -/
theorem C58_MatrixpairM32 (env : Env) (fuel : Nat) (Mat Mat_inv : M32) (w : World) :
    (∀ A w', wbge.InvTMatM32 env fuel Mat w = .ok (A, w') →
      ∃ B, wbge.MatrixpairM32 env fuel Mat Mat_inv w = .ok ((A, B), w') ∧
        mat32 A * mat32 B = 1 ∧ mat32 B * mat32 A = 1) ∧
    (∀ f, wbge.InvTMatM32 env fuel Mat w = .error f →
      wbge.MatrixpairM32 env fuel Mat Mat_inv w = .error f) := by
  refine ⟨fun A w' h => ?_, fun f h => CM_bind_error h⟩
  have hA : IsUnit (mat32 A) := by
    rcases C58_InvTMatM32 env fuel Mat w with ⟨i, -, A', w'', -, hu, -, h'⟩ | ⟨-, h'⟩
    · rw [h] at h'
      cases h'
      exact hu
    · rw [h] at h'; cases h'
  obtain ⟨B, hB, hAB, hBA⟩ := C13_invsM32 A Mat_inv hA
  refine ⟨B, ?_, hAB, hBA⟩
  unfold wbge.MatrixpairM32
  rw [CM_bind_run h, hB, CM_bind_run (liftC_run _ rfl)]
  rfl

/-- C58: if the clock shows the same time during `2^32` successive seedings, however many came
before, `InvTMatM32` returns. -/
theorem C58_InvTMatM32_terminates (env : Env) (Mat : M32) (w : World) (N : Nat) (c : BitVec 32)
    (hc : ∀ k, N ≤ k → k < N + 2 ^ 32 → w.clock (w.now + k) = c) :
    ∃ A w', wbge.InvTMatM32 env (N + 2 ^ 32) Mat w = .ok (A, w') ∧ IsUnit (mat32 A) := by
  rcases C58_InvTMatM32 env (N + 2 ^ 32) Mat w with ⟨i, -, A, w', -, hu, -, h⟩ | ⟨hb, -⟩
  · exact ⟨A, w', h, hu⟩
  · obtain ⟨i, hi, hs⟩ := seedAt_surj w N c 0#32 hc
    obtain ⟨B, w'', h, hn⟩ := hb i hi
    rw [randM32_gen, seedOf_later, hs] at h
    rw [← (Prod.mk.inj (Except.ok.inj h)).1] at hn
    exact absurd (gen32_good) hn

/-- C58: `InvTMatM32` can run forever: if the clock moves in step with the counter every attempt
uses the same seed. -/
theorem C58_InvTMatM32_may_diverge : ∃ w, ∀ env fuel Mat,
    wbge.InvTMatM32 env fuel Mat w = .error .diverge := by
  refine ⟨exStuck, fun env fuel Mat => ?_⟩
  rcases C58_InvTMatM32 env fuel Mat exStuck with ⟨i, -, A, w', h, hu, -, -⟩ | ⟨-, h⟩
  · rw [randM32_gen, seedOf_later, exStuck_seed] at h
    rw [← (Prod.mk.inj (Except.ok.inj h)).1] at hu
    exact absurd hu (gen32_bad)
  · exact h

example (env : Env) : ∃ A w', wbge.InvTMatM32 env (2 + 2 ^ 32) exB32
    { exWorld with clock := fun k => if k < 2 then 7 else 1700000000 } = .ok (A, w') ∧ IsUnit (mat32 A) :=
  C58_InvTMatM32_terminates env exB32 _ 2 1700000000 (fun k h _ => by
    show (if exWorld.now + k < 2 then (7 : BitVec 32) else 1700000000) = _
    rw [if_neg (by omega)])

/-! ## 64 -/

/-- C58: `InvTMatM64` returns the first invertible matrix among those that `randM64` stores in
consecutive calls; as long as there is none it goes on. -/
theorem C58_InvTMatM64 (env : Env) (fuel : Nat) (Mat : M64) (w : World) :
    (∃ i < fuel, ∃ A w', randM64 env Mat (later w i) = .ok (A, w') ∧ IsUnit (mat64 A) ∧
      (∀ j < i, ∃ B w'', randM64 env Mat (later w j) = .ok (B, w'') ∧ ¬ IsUnit (mat64 B)) ∧
      wbge.InvTMatM64 env fuel Mat w = .ok (A, w')) ∨
    ((∀ j < fuel, ∃ B w'', randM64 env Mat (later w j) = .ok (B, w'') ∧ ¬ IsUnit (mat64 B)) ∧
      wbge.InvTMatM64 env fuel Mat w = .error .diverge) := by
  classical
  have hg : ∀ j, randM64 env Mat (later w j) = .ok (gen64 env (seedAt w j), after 128 w (j + 1)) := by
    intro j; rw [randM64_gen, seedOf_later, later_seeded]
  have hc : ∀ s, (do pure ((← isinvertM64 (gen64 env s)) == 0) : C Bool) =
      .ok (decide (¬ IsUnit (mat64 (gen64 env s)))) := by
    intro s
    rw [C12_isinvertM64]
    by_cases h : IsUnit (mat64 (gen64 env s))
    · simp only [h, if_true, not_true_eq_false, decide_false]; rfl
    · simp only [h, if_false, not_false_eq_true, decide_true]; rfl
  have key := reject_run (rand := fun temp => randM64 env temp)
    (cond := fun temp => do pure ((← isinvertM64 temp) == 0)) (gen := gen64 env) (K := 128)
    (bad := fun s => decide (¬ IsUnit (mat64 (gen64 env s)))) (fun a w => randM64_gen env a w) hc
    (env.junkArr 64 64) w fuel
  have hrun : wbge.InvTMatM64 env fuel Mat w = (do
      let t ← (do
        let t ← randM64 env (env.junkArr 64 64)
        whileM (fun temp => do pure ((← isinvertM64 temp) == 0)) (fun temp => randM64 env temp) fuel t)
      liftC (copyM64 t Mat) : CM M64) w := by
    unfold wbge.InvTMatM64
    rw [bind_assoc]
  rcases key with ⟨i, hi, hb, hu, hr⟩ | ⟨hb, hr⟩
  · left
    refine ⟨i, hi, _, _, hg i, by simpa using hu, fun j hj => ⟨_, _, hg j, by simpa using hb j hj⟩, ?_⟩
    rw [hrun, CM_bind_run hr, copyM64_eq]
    rfl
  · right
    refine ⟨fun j hj => ⟨_, _, hg j, by simpa using hb j hj⟩, ?_⟩
    rw [hrun]
    exact CM_bind_error hr

/-- C58: `MatrixpairM64` returns what `InvTMatM64` returns together with its inverse. -/
theorem C58_MatrixpairM64 (env : Env) (fuel : Nat) (Mat Mat_inv : M64) (w : World) :
    (∀ A w', wbge.InvTMatM64 env fuel Mat w = .ok (A, w') →
      ∃ B, wbge.MatrixpairM64 env fuel Mat Mat_inv w = .ok ((A, B), w') ∧
        mat64 A * mat64 B = 1 ∧ mat64 B * mat64 A = 1) ∧
    (∀ f, wbge.InvTMatM64 env fuel Mat w = .error f →
      wbge.MatrixpairM64 env fuel Mat Mat_inv w = .error f) := by
  refine ⟨fun A w' h => ?_, fun f h => CM_bind_error h⟩
  have hA : IsUnit (mat64 A) := by
    rcases C58_InvTMatM64 env fuel Mat w with ⟨i, -, A', w'', -, hu, -, h'⟩ | ⟨-, h'⟩
    · rw [h] at h'
      cases h'
      exact hu
    · rw [h] at h'; cases h'
  obtain ⟨B, hB, hAB, hBA⟩ := C13_invsM64 A Mat_inv hA
  refine ⟨B, ?_, hAB, hBA⟩
  unfold wbge.MatrixpairM64
  rw [CM_bind_run h, hB, CM_bind_run (liftC_run _ rfl)]
  rfl

/-- C58: if the clock shows the same time during `2^32` successive seedings, however many came
before, `InvTMatM64` returns. -/
theorem C58_InvTMatM64_terminates (env : Env) (Mat : M64) (w : World) (N : Nat) (c : BitVec 32)
    (hc : ∀ k, N ≤ k → k < N + 2 ^ 32 → w.clock (w.now + k) = c) :
    ∃ A w', wbge.InvTMatM64 env (N + 2 ^ 32) Mat w = .ok (A, w') ∧ IsUnit (mat64 A) := by
  rcases C58_InvTMatM64 env (N + 2 ^ 32) Mat w with ⟨i, -, A, w', -, hu, -, h⟩ | ⟨hb, -⟩
  · exact ⟨A, w', h, hu⟩
  · obtain ⟨i, hi, hs⟩ := seedAt_surj w N c 11#32 hc
    obtain ⟨B, w'', h, hn⟩ := hb i hi
    rw [randM64_gen, seedOf_later, hs] at h
    rw [← (Prod.mk.inj (Except.ok.inj h)).1] at hn
    exact absurd (gen64_good env) hn

/-- C58: `InvTMatM64` can run forever: if the clock moves in step with the counter every attempt
uses the same seed. -/
theorem C58_InvTMatM64_may_diverge : ∃ w, ∀ env fuel Mat,
    wbge.InvTMatM64 env fuel Mat w = .error .diverge := by
  refine ⟨exStuck, fun env fuel Mat => ?_⟩
  rcases C58_InvTMatM64 env fuel Mat exStuck with ⟨i, -, A, w', h, hu, -, -⟩ | ⟨-, h⟩
  · rw [randM64_gen, seedOf_later, exStuck_seed] at h
    rw [← (Prod.mk.inj (Except.ok.inj h)).1] at hu
    exact absurd hu (gen64_bad env)
  · exact h

example (env : Env) : ∃ A w', wbge.InvTMatM64 env (2 + 2 ^ 32) exB64
    { exWorld with clock := fun k => if k < 2 then 7 else 1700000000 } = .ok (A, w') ∧ IsUnit (mat64 A) :=
  C58_InvTMatM64_terminates env exB64 _ 2 1700000000 (fun k h _ => by
    show (if exWorld.now + k < 2 then (7 : BitVec 32) else 1700000000) = _
    rw [if_neg (by omega)])

/-! ## 128 -/

/-- C58: `InvTMatM128` returns the first invertible matrix among those that `randM128` stores in
consecutive calls; as long as there is none it goes on. -/
theorem C58_InvTMatM128 (env : Env) (fuel : Nat) (Mat : M128) (w : World) :
    (∃ i < fuel, ∃ A w', randM128 env Mat (later w i) = .ok (A, w') ∧ IsUnit (mat128 A) ∧
      (∀ j < i, ∃ B w'', randM128 env Mat (later w j) = .ok (B, w'') ∧ ¬ IsUnit (mat128 B)) ∧
      wbge.InvTMatM128 env fuel Mat w = .ok (A, w')) ∨
    ((∀ j < fuel, ∃ B w'', randM128 env Mat (later w j) = .ok (B, w'') ∧ ¬ IsUnit (mat128 B)) ∧
      wbge.InvTMatM128 env fuel Mat w = .error .diverge) := by
  classical
  have hg : ∀ j, randM128 env Mat (later w j) = .ok (gen128 env (seedAt w j), after 512 w (j + 1)) := by
    intro j; rw [randM128_gen, seedOf_later, later_seeded]
  have hc : ∀ s, (do pure ((← isinvertM128 (gen128 env s)) == 0) : C Bool) =
      .ok (decide (¬ IsUnit (mat128 (gen128 env s)))) := by
    intro s
    rw [C12_isinvertM128]
    by_cases h : IsUnit (mat128 (gen128 env s))
    · simp only [h, if_true, not_true_eq_false, decide_false]; rfl
    · simp only [h, if_false, not_false_eq_true, decide_true]; rfl
  have key := reject_run (rand := fun temp => randM128 env temp)
    (cond := fun temp => do pure ((← isinvertM128 temp) == 0)) (gen := gen128 env) (K := 512)
    (bad := fun s => decide (¬ IsUnit (mat128 (gen128 env s)))) (fun a w => randM128_gen env a w) hc
    (env.junkArr2 64 2 128) w fuel
  have hrun : wbge.InvTMatM128 env fuel Mat w = (do
      let t ← (do
        let t ← randM128 env (env.junkArr2 64 2 128)
        whileM (fun temp => do pure ((← isinvertM128 temp) == 0)) (fun temp => randM128 env temp) fuel t)
      liftC (copyM128 t Mat) : CM M128) w := by
    unfold wbge.InvTMatM128
    rw [bind_assoc]
  rcases key with ⟨i, hi, hb, hu, hr⟩ | ⟨hb, hr⟩
  · left
    refine ⟨i, hi, _, _, hg i, by simpa using hu, fun j hj => ⟨_, _, hg j, by simpa using hb j hj⟩, ?_⟩
    rw [hrun, CM_bind_run hr, copyM128_eq]
    rfl
  · right
    refine ⟨fun j hj => ⟨_, _, hg j, by simpa using hb j hj⟩, ?_⟩
    rw [hrun]
    exact CM_bind_error hr

/-- C58: `MatrixpairM128` returns what `InvTMatM128` returns together with its inverse. -/
theorem C58_MatrixpairM128 (env : Env) (fuel : Nat) (Mat Mat_inv : M128) (w : World) :
    (∀ A w', wbge.InvTMatM128 env fuel Mat w = .ok (A, w') →
      ∃ B, wbge.MatrixpairM128 env fuel Mat Mat_inv w = .ok ((A, B), w') ∧
        mat128 A * mat128 B = 1 ∧ mat128 B * mat128 A = 1) ∧
    (∀ f, wbge.InvTMatM128 env fuel Mat w = .error f →
      wbge.MatrixpairM128 env fuel Mat Mat_inv w = .error f) := by
  refine ⟨fun A w' h => ?_, fun f h => CM_bind_error h⟩
  have hA : IsUnit (mat128 A) := by
    rcases C58_InvTMatM128 env fuel Mat w with ⟨i, -, A', w'', -, hu, -, h'⟩ | ⟨-, h'⟩
    · rw [h] at h'
      cases h'
      exact hu
    · rw [h] at h'; cases h'
  obtain ⟨B, hB, hAB, hBA⟩ := C13_invsM128 A Mat_inv hA
  refine ⟨B, ?_, hAB, hBA⟩
  unfold wbge.MatrixpairM128
  rw [CM_bind_run h, hB, CM_bind_run (liftC_run _ rfl)]
  rfl

/-- C58: if the clock shows the same time during `2^32` successive seedings, however many came
before, `InvTMatM128` returns. -/
theorem C58_InvTMatM128_terminates (env : Env) (Mat : M128) (w : World) (N : Nat) (c : BitVec 32)
    (hc : ∀ k, N ≤ k → k < N + 2 ^ 32 → w.clock (w.now + k) = c) :
    ∃ A w', wbge.InvTMatM128 env (N + 2 ^ 32) Mat w = .ok (A, w') ∧ IsUnit (mat128 A) := by
  rcases C58_InvTMatM128 env (N + 2 ^ 32) Mat w with ⟨i, -, A, w', -, hu, -, h⟩ | ⟨hb, -⟩
  · exact ⟨A, w', h, hu⟩
  · obtain ⟨i, hi, hs⟩ := seedAt_surj w N c 2#32 hc
    obtain ⟨B, w'', h, hn⟩ := hb i hi
    rw [randM128_gen, seedOf_later, hs] at h
    rw [← (Prod.mk.inj (Except.ok.inj h)).1] at hn
    exact absurd (gen128_good env) hn

/-- C58: `InvTMatM128` can run forever: if the clock moves in step with the counter every attempt
uses the same seed. -/
theorem C58_InvTMatM128_may_diverge : ∃ w, ∀ env fuel Mat,
    wbge.InvTMatM128 env fuel Mat w = .error .diverge := by
  refine ⟨exStuck, fun env fuel Mat => ?_⟩
  rcases C58_InvTMatM128 env fuel Mat exStuck with ⟨i, -, A, w', h, hu, -, -⟩ | ⟨-, h⟩
  · rw [randM128_gen, seedOf_later, exStuck_seed] at h
    rw [← (Prod.mk.inj (Except.ok.inj h)).1] at hu
    exact absurd hu (gen128_bad env)
  · exact h

example (env : Env) : ∃ A w', wbge.InvTMatM128 env (2 + 2 ^ 32) exB128
    { exWorld with clock := fun k => if k < 2 then 7 else 1700000000 } = .ok (A, w') ∧ IsUnit (mat128 A) :=
  C58_InvTMatM128_terminates env exB128 _ 2 1700000000 (fun k h _ => by
    show (if exWorld.now + k < 2 then (7 : BitVec 32) else 1700000000) = _
    rw [if_neg (by omega)])

/-! ## 256 -/

/-- C58: `InvTMatM256` returns the first invertible matrix among those that `randM256` stores in
consecutive calls; as long as there is none it goes on. -/
theorem C58_InvTMatM256 (env : Env) (fuel : Nat) (Mat : M256) (w : World) :
    (∃ i < fuel, ∃ A w', randM256 env Mat (later w i) = .ok (A, w') ∧ IsUnit (mat256 A) ∧
      (∀ j < i, ∃ B w'', randM256 env Mat (later w j) = .ok (B, w'') ∧ ¬ IsUnit (mat256 B)) ∧
      wbge.InvTMatM256 env fuel Mat w = .ok (A, w')) ∨
    ((∀ j < fuel, ∃ B w'', randM256 env Mat (later w j) = .ok (B, w'') ∧ ¬ IsUnit (mat256 B)) ∧
      wbge.InvTMatM256 env fuel Mat w = .error .diverge) := by
  classical
  have hg : ∀ j, randM256 env Mat (later w j) = .ok (gen256 env (seedAt w j), after 2048 w (j + 1)) := by
    intro j; rw [randM256_gen, seedOf_later, later_seeded]
  have hc : ∀ s, (do pure ((← isinvertM256 (gen256 env s)) == 0) : C Bool) =
      .ok (decide (¬ IsUnit (mat256 (gen256 env s)))) := by
    intro s
    rw [C12_isinvertM256]
    by_cases h : IsUnit (mat256 (gen256 env s))
    · simp only [h, if_true, not_true_eq_false, decide_false]; rfl
    · simp only [h, if_false, not_false_eq_true, decide_true]; rfl
  have key := reject_run (rand := fun temp => randM256 env temp)
    (cond := fun temp => do pure ((← isinvertM256 temp) == 0)) (gen := gen256 env) (K := 2048)
    (bad := fun s => decide (¬ IsUnit (mat256 (gen256 env s)))) (fun a w => randM256_gen env a w) hc
    (env.junkArr2 64 4 256) w fuel
  have hrun : wbge.InvTMatM256 env fuel Mat w = (do
      let t ← (do
        let t ← randM256 env (env.junkArr2 64 4 256)
        whileM (fun temp => do pure ((← isinvertM256 temp) == 0)) (fun temp => randM256 env temp) fuel t)
      liftC (copyM256 t Mat) : CM M256) w := by
    unfold wbge.InvTMatM256
    rw [bind_assoc]
  rcases key with ⟨i, hi, hb, hu, hr⟩ | ⟨hb, hr⟩
  · left
    refine ⟨i, hi, _, _, hg i, by simpa using hu, fun j hj => ⟨_, _, hg j, by simpa using hb j hj⟩, ?_⟩
    rw [hrun, CM_bind_run hr, copyM256_eq]
    rfl
  · right
    refine ⟨fun j hj => ⟨_, _, hg j, by simpa using hb j hj⟩, ?_⟩
    rw [hrun]
    exact CM_bind_error hr

/-- C58: `MatrixpairM256` returns what `InvTMatM256` returns together with its inverse. -/
theorem C58_MatrixpairM256 (env : Env) (fuel : Nat) (Mat Mat_inv : M256) (w : World) :
    (∀ A w', wbge.InvTMatM256 env fuel Mat w = .ok (A, w') →
      ∃ B, wbge.MatrixpairM256 env fuel Mat Mat_inv w = .ok ((A, B), w') ∧
        mat256 A * mat256 B = 1 ∧ mat256 B * mat256 A = 1) ∧
    (∀ f, wbge.InvTMatM256 env fuel Mat w = .error f →
      wbge.MatrixpairM256 env fuel Mat Mat_inv w = .error f) := by
  refine ⟨fun A w' h => ?_, fun f h => CM_bind_error h⟩
  have hA : IsUnit (mat256 A) := by
    rcases C58_InvTMatM256 env fuel Mat w with ⟨i, -, A', w'', -, hu, -, h'⟩ | ⟨-, h'⟩
    · rw [h] at h'
      cases h'
      exact hu
    · rw [h] at h'; cases h'
  obtain ⟨B, hB, hAB, hBA⟩ := C13_invsM256 A Mat_inv hA
  refine ⟨B, ?_, hAB, hBA⟩
  unfold wbge.MatrixpairM256
  rw [CM_bind_run h, hB, CM_bind_run (liftC_run _ rfl)]
  rfl

/-- C58: if the clock shows the same time during `2^32` successive seedings, however many came
before, `InvTMatM256` returns. -/
theorem C58_InvTMatM256_terminates (env : Env) (Mat : M256) (w : World) (N : Nat) (c : BitVec 32)
    (hc : ∀ k, N ≤ k → k < N + 2 ^ 32 → w.clock (w.now + k) = c) :
    ∃ A w', wbge.InvTMatM256 env (N + 2 ^ 32) Mat w = .ok (A, w') ∧ IsUnit (mat256 A) := by
  rcases C58_InvTMatM256 env (N + 2 ^ 32) Mat w with ⟨i, -, A, w', -, hu, -, h⟩ | ⟨hb, -⟩
  · exact ⟨A, w', h, hu⟩
  · obtain ⟨i, hi, hs⟩ := seedAt_surj w N c 0#32 hc
    obtain ⟨B, w'', h, hn⟩ := hb i hi
    rw [randM256_gen, seedOf_later, hs] at h
    rw [← (Prod.mk.inj (Except.ok.inj h)).1] at hn
    exact absurd (gen256_good env) hn

/-- C58: `InvTMatM256` can run forever: if the clock moves in step with the counter every attempt
uses the same seed. -/
theorem C58_InvTMatM256_may_diverge : ∃ w, ∀ env fuel Mat,
    wbge.InvTMatM256 env fuel Mat w = .error .diverge := by
  refine ⟨exStuck, fun env fuel Mat => ?_⟩
  rcases C58_InvTMatM256 env fuel Mat exStuck with ⟨i, -, A, w', h, hu, -, -⟩ | ⟨-, h⟩
  · rw [randM256_gen, seedOf_later, exStuck_seed] at h
    rw [← (Prod.mk.inj (Except.ok.inj h)).1] at hu
    exact absurd hu (gen256_bad env)
  · exact h

example (env : Env) : ∃ A w', wbge.InvTMatM256 env (2 + 2 ^ 32) exB256
    { exWorld with clock := fun k => if k < 2 then 7 else 1700000000 } = .ok (A, w') ∧ IsUnit (mat256 A) :=
  C58_InvTMatM256_terminates env exB256 _ 2 1700000000 (fun k h _ => by
    show (if exWorld.now + k < 2 then (7 : BitVec 32) else 1700000000) = _
    rw [if_neg (by omega)])

/-- A run with two rejected attempts. -/
example : (wbge.InvTMatM4 exEnv 9 exB4 exWorld).map (·.1) = .ok #v[0x0c, 0x08, 0x03, 0x0a] ∧
    (wbge.InvTMatM4 exEnv 2 exB4 exWorld).map (·.1) = .error .diverge := by decide +kernel

end WB
