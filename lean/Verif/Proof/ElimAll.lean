import Verif.Proof.GenSteps
import Verif.Proof.Simple

/-!
# `isinvert`, `invs` and `genMatpair` for every size (helper lemmas)

Written by `tools/gen_elim.py`.
-/
namespace WB
open Matrix

/-- What a call of a pair generator does to the globals besides drawing random numbers. -/
def GenWorld (w w' : World) : Prop :=
  w'.randseed = w.randseed + 2#32 ∧ w'.now = w.now + 2 ∧ w'.clock = w.clock ∧ w'.out = w.out

/-- What a call of a `rand*` function does to the globals besides drawing random numbers. -/
def RandWorld (w w' : World) : Prop :=
  w'.randseed = w.randseed + 1#32 ∧ w'.now = w.now + 1 ∧ w'.clock = w.clock ∧ w'.out = w.out

theorem RandWorld.onlyIndex {w w' w'' : World} (h : RandWorld w w') (h' : OnlyIndex w' w'') :
    RandWorld w w'' := by
  obtain ⟨k, rfl⟩ := h'
  exact h

theorem GenWorld.onlyIndex {w w' w'' : World} (h : GenWorld w w') (h' : OnlyIndex w' w'') :
    GenWorld w w'' := by
  obtain ⟨k, rfl⟩ := h'
  exact h

theorem RandWorld.trans {w w' w'' : World} (h : RandWorld w w') (h' : RandWorld w' w'') :
    GenWorld w w'' := by
  obtain ⟨a, b, c, d⟩ := h
  obtain ⟨a', b', c', d'⟩ := h'
  refine ⟨?_, by omega, c'.trans c, d'.trans d⟩
  rw [a', a, BitVec.add_assoc]; rfl

theorem OkM_reseed (w : World) (Q : Unit → World → Prop)
    (h : ∀ w', RandWorld w w' → Q () w') : OkM reseed w Q := by
  unfold reseed randseedPostInc timeNow InitRandom
  simp only [OkM.bind_iff, OkM.modifyGet_iff, OkM.modify_iff]
  exact h _ ⟨rfl, rfl, rfl, rfl⟩

theorem bitS_ext {n w : Nat} {x y : BitVec w} (hx : ∀ k, n ≤ k → x.getLsbD k = false)
    (hy : ∀ k, n ≤ k → y.getLsbD k = false)
    (h : ∀ c, c < n → bitS n x c = bitS n y c) : x = y := by
  apply BitVec.eq_of_getLsbD_eq
  intro k _
  by_cases hk : k < n
  · have := h (n - 1 - k) (by omega)
    unfold bitS at this
    rwa [show n - 1 - (n - 1 - k) = k by omega] at this
  · rw [hx k (by omega), hy k (by omega)]

theorem Clean4.bits {x : BitVec 8} (h : Clean4 x) (k : Nat) (hk : 4 ≤ k) :
    x.getLsbD k = false := by
  unfold Clean4 at h
  rw [BitVec.getLsbD, Nat.testBit_lt_two_pow]
  calc x.toNat < 2 ^ 4 := h
    _ ≤ 2 ^ k := Nat.pow_le_pow_right (by omega) hk

/-- The last row after a complete elimination. -/
theorem lastRow {n w : Nat} (hn : 0 < n) {A id : Vector (BitVec w) n} (hid : IdOK n id)
    (hT : Tri n (matOf n (bitS n) A)) (hD : Diag n (matOf n (bitS n) A))
    (hA : ∀ k, n ≤ k → (A[n - 1]).getLsbD k = false) :
    A[n - 1] = id[n - 1] := by
  apply bitS_ext (n := n) hA
  · intro k hk
    rw [hid.2 _ (by omega), BitVec.getLsbD_twoPow]
    simp; omega
  · intro c hc
    have h1 : matOf n (bitS n) A ⟨n - 1, by omega⟩ ⟨c, hc⟩ =
        (1 : Mat n) ⟨n - 1, by omega⟩ ⟨c, hc⟩ := by
      by_cases e : c = n - 1
      · subst e; rw [one_apply_eq]; exact hD _ (by simp; omega)
      · rw [one_apply_ne (by intro h; simp at h; omega)]
        exact hT _ _ (by simp; omega) (by simp; omega)
    rw [← mat_id hid] at h1
    exact bitF_inj.1 h1

theorem lastRowW {n l : Nat} (hn : n = 64 * l) (hl : 0 < l)
    {A : Vector (Vector (BitVec 64) l) n}
    (hT : Tri n (matOf n bitW A)) (hD : Diag n (matOf n bitW A)) :
    A[n - 1][l - 1] = idM64[63] := by
  apply BitVec.eq_of_getLsbD_eq
  intro k hk
  have hc : 64 * (l - 1) + (63 - k) < n := by omega
  have hd : (64 * (l - 1) + (63 - k)) / 64 = l - 1 := by omega
  have hm : (64 * (l - 1) + (63 - k)) % 64 = 63 - k := by omega
  have h1 : bitW A[n - 1] (64 * (l - 1) + (63 - k)) = decide (k = 0) := by
    apply bitF_inj.1
    by_cases e : k = 0
    · subst e
      have := hD ⟨n - 1, by omega⟩ (by simp; omega)
      simp only [matOf, Fin.getElem_fin] at this
      rw [show 64 * (l - 1) + (63 - 0) = n - 1 by omega, this]; rfl
    · have := hT ⟨n - 1, by omega⟩ ⟨_, hc⟩ hc (by simp; omega)
      simp only [matOf, Fin.getElem_fin] at this
      rw [this]; simp [e]
  rw [bitW_eq _ _ (by omega)] at h1
  rw [idOK64.2 63 (by omega), BitVec.getLsbD_twoPow]
  simp only [hd, hm] at h1
  rw [show 63 - (63 - k) = k by omega] at h1
  rw [h1]
  simp; tauto

/-- Random rows: the loop of `randM*` for single-word rows. -/
theorem randRows_ok {w n : Nat} (conv : BitVec 32 → BitVec w) (P : BitVec w → Prop)
    (hP : ∀ r, P (conv r)) (M : Vector (BitVec w) n) (w0 : World) :
    OkM (forUp 0 n M fun i M => do
      let r ← cus_random
      liftC (wr M i (conv r))) w0
      (fun M' w' => (∀ i (h : i < n), P M'[i]) ∧ OnlyIndex w0 w') := by
  refine OkM.forUp (fun i M' w' => (∀ r (h : r < n), r < i → P M'[r]) ∧ OnlyIndex w0 w')
    (Nat.zero_le _) ⟨fun r _ h => by omega, OnlyIndex.refl _⟩ ?_ ?_
  · rintro i M' w' - hi ⟨h, hw⟩
    rw [OkM.bind_iff]
    refine OkM_random ?_
    intro r w2 hw2
    rw [OkM.liftC_iff, Ok_wr]
    refine ⟨hi, ?_, hw.trans hw2⟩
    intro r' hr' hlt
    rw [Vector.getElem_set]
    split
    · exact hP r
    · exact h r' hr' (by omega)
  · rintro M' w' ⟨h, hw⟩
    exact ⟨fun i hi => h i hi hi, hw⟩

theorem clean4_mask (r : BitVec 32) : Clean4 ((r &&& 0x0f).setWidth 8) := by
  unfold Clean4
  simp only [BitVec.toNat_setWidth, BitVec.toNat_and]
  have : r.toNat &&& (15 : BitVec 32).toNat < 2 ^ 4 := Nat.and_lt_two_pow _ (by decide)
  omega

theorem mat_comm {n : Nat} {A B : Mat n} (h : A * B = 1) : B * A = 1 := mul_eq_one_comm.1 h

theorem stSub_eq (env : Env) {W w : Nat} (x : BitVec W) (k : Nat) (v : BitVec w)
    (h : (k + 1) * w ≤ W) : ∃ y, env.stSub x k v = .ok y := by
  unfold Env.stSub
  rw [if_pos h]
  exact ⟨_, rfl⟩

theorem stWord_ok (env : Env) {n : Nat} (M : Vector (BitVec 64) n) {i : Nat} (hi : i < n)
    (k : Nat) (hk : k < 2) (r : BitVec 32) :
    ∃ M', (do wr M i (← env.stSub (← rd M i) k r) : C _) = .ok M' := by
  obtain ⟨y, hy⟩ := stSub_eq env M[i] k r (by omega)
  rw [rd_ok _ _ hi, C_pure_bind, hy, C_pure_bind, wr_ok _ _ _ hi]
  exact ⟨_, rfl⟩

theorem stWord2_ok (env : Env) {n l : Nat} (M : Vector (Vector (BitVec 64) l) n) {i : Nat}
    (hi : i < n) {c : Nat} (hc : c < l) (k : Nat) (hk : k < 2) (r : BitVec 32) :
    ∃ M', (do wr2 M i c (← env.stSub (← rd2 M i c) k r) : C _) = .ok M' := by
  obtain ⟨y, hy⟩ := stSub_eq env M[i][c] k r (by omega)
  rw [rd2_ok _ _ _ hi hc, C_pure_bind, hy, C_pure_bind, wr2_ok _ _ _ _ hi hc]
  exact ⟨_, rfl⟩

theorem cleanM4_id : CleanM4 idM4 := by unfold CleanM4 Clean4; decide

/-! ## Size 4 -/

theorem isinvertM4_ok (A : M4) : Ok (isinvertM4 A) (fun r =>
    (r = 0 ∨ r = 1) ∧ (r = 1 → (mat4 A).det = 1) ∧ (CleanM4 A → (mat4 A).det = 1 → r = 1)) := by
  have hO := opsS_ok4 idM4 idOK4
  unfold isinvertM4
  refine Ok.bind (P := Step.holds (isinvInv (matOf 4 (bitS 4)) CleanM4 A 4)
    (fun r => r = 0 ∧ (mat4 A).det = 0)) ?_ ?_
  · refine Ok.forRet (isinvInv (matOf 4 (bitS 4)) CleanM4 A) _ (Nat.zero_le _)
      ⟨Tri.zero _, fun c h => absurd h (Nat.not_lt_zero _), rfl, fun h => h⟩ ?_
      (fun _ h => h) (fun _ h => h)
    intro i s _ hi hI
    exact isinvStep_spec hO A (Nat.zero_le _) hi hi hI
  · intro st h
    match st, h with
    | .stop r, h =>
      obtain ⟨hr, hd⟩ : r = 0 ∧ (mat4 A).det = 0 := h
      simp only [Ok.pure_iff]
      subst hr
      rw [hd]
      exact ⟨Or.inl rfl, fun h => absurd h (by decide), by intro _ h; exact absurd h (by decide)⟩
    | .next B, h =>
      obtain ⟨hT, hD, hdet, hG⟩ : isinvInv (matOf 4 (bitS 4)) CleanM4 A 4 B := h
      have hone : (mat4 A).det = 1 := hdet ▸ det_one_of_tri hT (fun i => hD i i.2)
      rw [Ok.bind_iff, Ok_rd]
      refine ⟨by omega, ?_⟩
      rw [Ok.bind_iff, Ok_rd]
      refine ⟨by omega, ?_⟩
      rw [Ok.ite_iff, Ok.pure_iff, Ok.pure_iff]
      constructor
      · intro _; exact ⟨Or.inr rfl, fun _ => hone, by intro _ _; rfl⟩
      · intro hne
        refine ⟨Or.inl rfl, fun h => absurd h (by decide), ?_⟩
        intro hcl _
        exact absurd (by simpa using lastRow (by omega) idOK4 hT hD (fun k hk => ((hG hcl) ⟨3, by omega⟩).bits k hk)) hne

theorem invsM4_ok (A B0 : M4) : Ok (invsM4 A B0) (fun B =>
    (mat4 B).det = 1 ∧ CleanM4 B ∧ ((mat4 A).det = 1 → mat4 B * mat4 A = 1)) := by
  have hO := opsS_ok4 idM4 idOK4
  unfold invsM4
  rw [identityM4_eq, C_pure_bind]
  refine Ok.bind (P := invsInv (matOf 4 (bitS 4)) CleanM4 A 4) ?_ ?_
  · refine Ok.forUp (invsInv (matOf 4 (bitS 4)) CleanM4 A) (Nat.zero_le _) ?_ ?_ (fun _ h => h)
    · refine ⟨Tri.zero _, ?_, ?_, cleanM4_id⟩
      · simp only; rw [mat_id idOK4, Matrix.one_mul]
      · simp only; rw [mat_id idOK4, det_one]
    · intro i s _ hi hI
      exact invsStep_spec hO A (Nat.zero_le _) hi hi hI
  · intro s hs
    refine Ok.bind (P := backInv (matOf 4 (bitS 4)) CleanM4 ((mat4 A).det = 1) A 0) ?_ ?_
    · refine Ok.forDown (backInv (matOf 4 (bitS 4)) CleanM4 ((mat4 A).det = 1) A)
        (Nat.zero_le _) (backInv_init hs) ?_ (fun _ h => h)
      intro i s _ hi hI
      exact backStep_spec hO _ A (Nat.zero_le _) hi hi hI
    · intro s hs
      rw [Ok.pure_iff]
      obtain ⟨h1, h2, h3⟩ := backInv_final hs
      exact ⟨h1, h2, h3⟩


theorem randM4_ok (M : M4) (w : World) :
    OkM (randM4 M) w (fun M w' => CleanM4 M ∧ RandWorld w w') := by
  unfold randM4
  rw [OkM.bind_iff]
  refine OkM_reseed w _ ?_
  intro w1 h1
  refine (randRows_ok (fun r => (r &&& 0x0f).setWidth 8) Clean4 clean4_mask M w1).mono ?_
  rintro M' w' ⟨hc, hw⟩
  exact ⟨fun i => hc i i.2, h1.onlyIndex hw⟩


theorem genMatpairM4_draw (env : Env) (A0 B0 : M4) (w : World) :
    OkM (genMatpairM4 env A0 B0) w (fun p w' =>
      mat4 p.1 * mat4 p.2 = 1 ∧ CleanM4 p.1 ∧ CleanM4 p.2 ∧ GenWorld w w' ∧
      ∃ w1 T w2, RandWorld w w1 ∧ randM4 (env.junkArr 8 4) w1 = .ok (T, w2) ∧
        ((mat4 T).det = 1 → p.1 = T ∧ w' = w2)) := by
  have hO := opsS_ok4 idM4 idOK4
  unfold genMatpairM4
  rw [OkM.bind_iff]
  refine OkM_reseed w _ ?_
  intro w1 hw1
  rw [OkM.bind_iff, OkM.liftC_iff, identityM4_eq, Ok.ok_iff]
  rw [OkM.bind_iff, OkM.liftC_iff, identityM4_eq, Ok.ok_iff]
  rw [OkM.bind_iff]
  refine (randM4_ok _ w1).withEq.mono ?_
  rintro T w2 ⟨hdraw, hcl, hw2⟩
  rw [OkM.bind_iff, OkM.liftC_iff, copyM4_eq, Ok.ok_iff]
  refine OkM.bind (P := fun s w' => genInv (matOf 4 (bitS 4)) CleanM4 T 4 s ∧
    DrawW w2 s w') ?_ ?_
  · refine OkM.forUp (fun i s w' => genInv (matOf 4 (bitS 4)) CleanM4 T i s ∧
      DrawW w2 s w') (Nat.zero_le _) ?_ ?_ (fun _ _ h => h)
    · refine ⟨⟨Tri.zero _, Nat.zero_le _, ⟨fun k _ h => absurd h (Nat.not_lt_zero _), ?_⟩, ?_,
        cleanM4_id, fun _ c h => absurd h (Nat.not_lt_zero _), fun h => by simp at h⟩, DrawW.refl _⟩
      · simp only [trailProd, Matrix.one_mul]; exact mat_id idOK4
      · simp only; rw [mat_id idOK4, Matrix.one_mul]
    · rintro i s w' - hi ⟨hI, hw'⟩
      exact genStep_spec hO (by omega) rfl T (Nat.zero_le _) hi hi hI hw'
  · rintro s w3 ⟨hs, hw3⟩
    rw [OkM.liftC_iff]
    have hW : GenWorld w w3 := (hw1.trans hw2).onlyIndex hw3.1
    rw [Ok.ite_iff]
    constructor
    · intro hv
      have hsing := singular_of_gen hs (by simpa using hv)
      refine Ok.bind (P := genBackInv (matOf 4 (bitS 4)) CleanM4 0) ?_ ?_
      · refine Ok.forDown (genBackInv (matOf 4 (bitS 4)) CleanM4) (Nat.zero_le _)
          (genBackInv_init hs) ?_ (fun _ h => h)
        intro i s _ hi hI
        exact genBack_spec hO (by omega) rfl (Nat.zero_le _) hi hi hI
      · rintro s ⟨hk, hT, hg⟩
        refine Ok.bind (replay_spec hO hT (Nat.le_trans hk (bwdOps_le (Nat.zero_le _)))
          (mat_id idOK4) cleanM4_id) ?_
        rintro A' ⟨hmul, hg'⟩
        rw [Ok.pure_iff]
        exact ⟨hmul, hg', hg, hW, w1, T, w2, hw1, hdraw, fun h => absurd (h.symm.trans hsing) (by decide)⟩
    · intro hv
      have hv' : s.invertible = true := by simpa using hv
      obtain ⟨hd, hb⟩ := backInv_of_gen hs hv'
      refine Ok.bind (P := backInv (matOf 4 (bitS 4)) CleanM4 ((mat4 T).det = 1) T 0) ?_ ?_
      · refine Ok.forDown (backInv (matOf 4 (bitS 4)) CleanM4 ((mat4 T).det = 1) T)
          (Nat.zero_le _) hb ?_ (fun _ h => h)
        intro i s _ hi hI
        exact backStep_spec hO _ T (Nat.zero_le _) hi hi hI
      · intro s hs
        obtain ⟨h1, h2, h3⟩ := backInv_final hs
        rw [copyM4_eq, C_pure_bind, Ok.pure_iff]
        exact ⟨mat_comm (h3 hd), hcl, h2, hW, w1, T, w2, hw1, hdraw, fun _ => ⟨rfl, hw3.2 hv'⟩⟩

theorem genMatpairM4_ok (env : Env) (A0 B0 : M4) (w : World) :
    OkM (genMatpairM4 env A0 B0) w (fun p w' =>
      mat4 p.1 * mat4 p.2 = 1 ∧ CleanM4 p.1 ∧ CleanM4 p.2 ∧ GenWorld w w') :=
  (genMatpairM4_draw env A0 B0 w).mono (fun _ _ h => ⟨h.1, h.2.1, h.2.2.1, h.2.2.2.1⟩)

/-! ## Size 8 -/

theorem isinvertM8_ok (A : M8) : Ok (isinvertM8 A) (fun r =>
    (r = 0 ∨ r = 1) ∧ (r = 1 → (mat8 A).det = 1) ∧ ((mat8 A).det = 1 → r = 1)) := by
  have hO := opsS_ok idM8 idOK8
  unfold isinvertM8
  refine Ok.bind (P := Step.holds (isinvInv (matOf 8 (bitS 8)) (fun _ => True) A 8)
    (fun r => r = 0 ∧ (mat8 A).det = 0)) ?_ ?_
  · refine Ok.forRet (isinvInv (matOf 8 (bitS 8)) (fun _ => True) A) _ (Nat.zero_le _)
      ⟨Tri.zero _, fun c h => absurd h (Nat.not_lt_zero _), rfl, fun h => h⟩ ?_
      (fun _ h => h) (fun _ h => h)
    intro i s _ hi hI
    exact isinvStep_spec hO A (Nat.zero_le _) hi hi hI
  · intro st h
    match st, h with
    | .stop r, h =>
      obtain ⟨hr, hd⟩ : r = 0 ∧ (mat8 A).det = 0 := h
      simp only [Ok.pure_iff]
      subst hr
      rw [hd]
      exact ⟨Or.inl rfl, fun h => absurd h (by decide), by intro h; exact absurd h (by decide)⟩
    | .next B, h =>
      obtain ⟨hT, hD, hdet, hG⟩ : isinvInv (matOf 8 (bitS 8)) (fun _ => True) A 8 B := h
      have hone : (mat8 A).det = 1 := hdet ▸ det_one_of_tri hT (fun i => hD i i.2)
      rw [Ok.bind_iff, Ok_rd]
      refine ⟨by omega, ?_⟩
      rw [Ok.bind_iff, Ok_rd]
      refine ⟨by omega, ?_⟩
      rw [Ok.ite_iff, Ok.pure_iff, Ok.pure_iff]
      constructor
      · intro _; exact ⟨Or.inr rfl, fun _ => hone, by intro _; rfl⟩
      · intro hne
        refine ⟨Or.inl rfl, fun h => absurd h (by decide), ?_⟩
        intro _
        exact absurd (by simpa using lastRow (by omega) idOK8 hT hD (fun k hk => BitVec.getLsbD_of_ge _ _ hk)) hne

theorem invsM8_ok (A B0 : M8) : Ok (invsM8 A B0) (fun B =>
    (mat8 B).det = 1 ∧ ((mat8 A).det = 1 → mat8 B * mat8 A = 1)) := by
  have hO := opsS_ok idM8 idOK8
  unfold invsM8
  rw [identityM8_eq, C_pure_bind]
  refine Ok.bind (P := invsInv (matOf 8 (bitS 8)) (fun _ => True) A 8) ?_ ?_
  · refine Ok.forUp (invsInv (matOf 8 (bitS 8)) (fun _ => True) A) (Nat.zero_le _) ?_ ?_ (fun _ h => h)
    · refine ⟨Tri.zero _, ?_, ?_, trivial⟩
      · simp only; rw [mat_id idOK8, Matrix.one_mul]
      · simp only; rw [mat_id idOK8, det_one]
    · intro i s _ hi hI
      exact invsStep_spec hO A (Nat.zero_le _) hi hi hI
  · intro s hs
    refine Ok.bind (P := backInv (matOf 8 (bitS 8)) (fun _ => True) ((mat8 A).det = 1) A 0) ?_ ?_
    · refine Ok.forDown (backInv (matOf 8 (bitS 8)) (fun _ => True) ((mat8 A).det = 1) A)
        (Nat.zero_le _) (backInv_init hs) ?_ (fun _ h => h)
      intro i s _ hi hI
      exact backStep_spec hO _ A (Nat.zero_le _) hi hi hI
    · intro s hs
      rw [Ok.pure_iff]
      obtain ⟨h1, h2, h3⟩ := backInv_final hs
      exact ⟨h1, h3⟩


theorem randM8_ok (M : M8) (w : World) :
    OkM (randM8 M) w (fun _ w' => RandWorld w w') := by
  unfold randM8
  rw [OkM.bind_iff]
  refine OkM_reseed w _ ?_
  intro w1 h1
  refine (randRows_ok (fun r => r.setWidth 8) (fun _ => True) (fun _ => trivial) M w1).mono ?_
  rintro M' w' ⟨-, hw⟩
  exact h1.onlyIndex hw


theorem genMatpairM8_draw (env : Env) (A0 B0 : M8) (w : World) :
    OkM (genMatpairM8 env A0 B0) w (fun p w' =>
      mat8 p.1 * mat8 p.2 = 1 ∧ GenWorld w w' ∧
      ∃ w1 T w2, RandWorld w w1 ∧ randM8 (env.junkArr 8 8) w1 = .ok (T, w2) ∧
        ((mat8 T).det = 1 → p.1 = T ∧ w' = w2)) := by
  have hO := opsS_ok idM8 idOK8
  unfold genMatpairM8
  rw [OkM.bind_iff]
  refine OkM_reseed w _ ?_
  intro w1 hw1
  rw [OkM.bind_iff, OkM.liftC_iff, identityM8_eq, Ok.ok_iff]
  rw [OkM.bind_iff, OkM.liftC_iff, identityM8_eq, Ok.ok_iff]
  rw [OkM.bind_iff]
  refine (randM8_ok _ w1).withEq.mono ?_
  rintro T w2 ⟨hdraw, hw2⟩
  rw [OkM.bind_iff, OkM.liftC_iff, copyM8_eq, Ok.ok_iff]
  refine OkM.bind (P := fun s w' => genInv (matOf 8 (bitS 8)) (fun _ => True) T 8 s ∧
    DrawW w2 s w') ?_ ?_
  · refine OkM.forUp (fun i s w' => genInv (matOf 8 (bitS 8)) (fun _ => True) T i s ∧
      DrawW w2 s w') (Nat.zero_le _) ?_ ?_ (fun _ _ h => h)
    · refine ⟨⟨Tri.zero _, Nat.zero_le _, ⟨fun k _ h => absurd h (Nat.not_lt_zero _), ?_⟩, ?_,
        trivial, fun _ c h => absurd h (Nat.not_lt_zero _), fun h => by simp at h⟩, DrawW.refl _⟩
      · simp only [trailProd, Matrix.one_mul]; exact mat_id idOK8
      · simp only; rw [mat_id idOK8, Matrix.one_mul]
    · rintro i s w' - hi ⟨hI, hw'⟩
      exact genStep_spec hO (by omega) rfl T (Nat.zero_le _) hi hi hI hw'
  · rintro s w3 ⟨hs, hw3⟩
    rw [OkM.liftC_iff]
    have hW : GenWorld w w3 := (hw1.trans hw2).onlyIndex hw3.1
    rw [Ok.ite_iff]
    constructor
    · intro hv
      have hsing := singular_of_gen hs (by simpa using hv)
      refine Ok.bind (P := genBackInv (matOf 8 (bitS 8)) (fun _ => True) 0) ?_ ?_
      · refine Ok.forDown (genBackInv (matOf 8 (bitS 8)) (fun _ => True)) (Nat.zero_le _)
          (genBackInv_init hs) ?_ (fun _ h => h)
        intro i s _ hi hI
        exact genBack_spec hO (by omega) rfl (Nat.zero_le _) hi hi hI
      · rintro s ⟨hk, hT, hg⟩
        refine Ok.bind (replay_spec hO hT (Nat.le_trans hk (bwdOps_le (Nat.zero_le _)))
          (mat_id idOK8) trivial) ?_
        rintro A' ⟨hmul, hg'⟩
        rw [Ok.pure_iff]
        exact ⟨hmul, hW, w1, T, w2, hw1, hdraw, fun h => absurd (h.symm.trans hsing) (by decide)⟩
    · intro hv
      have hv' : s.invertible = true := by simpa using hv
      obtain ⟨hd, hb⟩ := backInv_of_gen hs hv'
      refine Ok.bind (P := backInv (matOf 8 (bitS 8)) (fun _ => True) ((mat8 T).det = 1) T 0) ?_ ?_
      · refine Ok.forDown (backInv (matOf 8 (bitS 8)) (fun _ => True) ((mat8 T).det = 1) T)
          (Nat.zero_le _) hb ?_ (fun _ h => h)
        intro i s _ hi hI
        exact backStep_spec hO _ T (Nat.zero_le _) hi hi hI
      · intro s hs
        obtain ⟨h1, h2, h3⟩ := backInv_final hs
        rw [copyM8_eq, C_pure_bind, Ok.pure_iff]
        exact ⟨mat_comm (h3 hd), hW, w1, T, w2, hw1, hdraw, fun _ => ⟨rfl, hw3.2 hv'⟩⟩

theorem genMatpairM8_ok (env : Env) (A0 B0 : M8) (w : World) :
    OkM (genMatpairM8 env A0 B0) w (fun p w' =>
      mat8 p.1 * mat8 p.2 = 1 ∧ GenWorld w w') :=
  (genMatpairM8_draw env A0 B0 w).mono (fun _ _ h => ⟨h.1, h.2.1⟩)

/-! ## Size 16 -/

theorem isinvertM16_ok (A : M16) : Ok (isinvertM16 A) (fun r =>
    (r = 0 ∨ r = 1) ∧ (r = 1 → (mat16 A).det = 1) ∧ ((mat16 A).det = 1 → r = 1)) := by
  have hO := opsS_ok idM16 idOK16
  unfold isinvertM16
  refine Ok.bind (P := Step.holds (isinvInv (matOf 16 (bitS 16)) (fun _ => True) A 16)
    (fun r => r = 0 ∧ (mat16 A).det = 0)) ?_ ?_
  · refine Ok.forRet (isinvInv (matOf 16 (bitS 16)) (fun _ => True) A) _ (Nat.zero_le _)
      ⟨Tri.zero _, fun c h => absurd h (Nat.not_lt_zero _), rfl, fun h => h⟩ ?_
      (fun _ h => h) (fun _ h => h)
    intro i s _ hi hI
    exact isinvStep_spec hO A (Nat.zero_le _) hi hi hI
  · intro st h
    match st, h with
    | .stop r, h =>
      obtain ⟨hr, hd⟩ : r = 0 ∧ (mat16 A).det = 0 := h
      simp only [Ok.pure_iff]
      subst hr
      rw [hd]
      exact ⟨Or.inl rfl, fun h => absurd h (by decide), by intro h; exact absurd h (by decide)⟩
    | .next B, h =>
      obtain ⟨hT, hD, hdet, hG⟩ : isinvInv (matOf 16 (bitS 16)) (fun _ => True) A 16 B := h
      have hone : (mat16 A).det = 1 := hdet ▸ det_one_of_tri hT (fun i => hD i i.2)
      rw [Ok.bind_iff, Ok_rd]
      refine ⟨by omega, ?_⟩
      rw [Ok.bind_iff, Ok_rd]
      refine ⟨by omega, ?_⟩
      rw [Ok.ite_iff, Ok.pure_iff, Ok.pure_iff]
      constructor
      · intro _; exact ⟨Or.inr rfl, fun _ => hone, by intro _; rfl⟩
      · intro hne
        refine ⟨Or.inl rfl, fun h => absurd h (by decide), ?_⟩
        intro _
        exact absurd (by simpa using lastRow (by omega) idOK16 hT hD (fun k hk => BitVec.getLsbD_of_ge _ _ hk)) hne

theorem invsM16_ok (A B0 : M16) : Ok (invsM16 A B0) (fun B =>
    (mat16 B).det = 1 ∧ ((mat16 A).det = 1 → mat16 B * mat16 A = 1)) := by
  have hO := opsS_ok idM16 idOK16
  unfold invsM16
  rw [identityM16_eq, C_pure_bind]
  refine Ok.bind (P := invsInv (matOf 16 (bitS 16)) (fun _ => True) A 16) ?_ ?_
  · refine Ok.forUp (invsInv (matOf 16 (bitS 16)) (fun _ => True) A) (Nat.zero_le _) ?_ ?_ (fun _ h => h)
    · refine ⟨Tri.zero _, ?_, ?_, trivial⟩
      · simp only; rw [mat_id idOK16, Matrix.one_mul]
      · simp only; rw [mat_id idOK16, det_one]
    · intro i s _ hi hI
      exact invsStep_spec hO A (Nat.zero_le _) hi hi hI
  · intro s hs
    refine Ok.bind (P := backInv (matOf 16 (bitS 16)) (fun _ => True) ((mat16 A).det = 1) A 0) ?_ ?_
    · refine Ok.forDown (backInv (matOf 16 (bitS 16)) (fun _ => True) ((mat16 A).det = 1) A)
        (Nat.zero_le _) (backInv_init hs) ?_ (fun _ h => h)
      intro i s _ hi hI
      exact backStep_spec hO _ A (Nat.zero_le _) hi hi hI
    · intro s hs
      rw [Ok.pure_iff]
      obtain ⟨h1, h2, h3⟩ := backInv_final hs
      exact ⟨h1, h3⟩


theorem randM16_ok (M : M16) (w : World) :
    OkM (randM16 M) w (fun _ w' => RandWorld w w') := by
  unfold randM16
  rw [OkM.bind_iff]
  refine OkM_reseed w _ ?_
  intro w1 h1
  refine (randRows_ok (fun r => r.setWidth 16) (fun _ => True) (fun _ => trivial) M w1).mono ?_
  rintro M' w' ⟨-, hw⟩
  exact h1.onlyIndex hw


theorem genMatpairM16_draw (env : Env) (A0 B0 : M16) (w : World) :
    OkM (genMatpairM16 env A0 B0) w (fun p w' =>
      mat16 p.1 * mat16 p.2 = 1 ∧ GenWorld w w' ∧
      ∃ w1 T w2, RandWorld w w1 ∧ randM16 (env.junkArr 16 16) w1 = .ok (T, w2) ∧
        ((mat16 T).det = 1 → p.1 = T ∧ w' = w2)) := by
  have hO := opsS_ok idM16 idOK16
  unfold genMatpairM16
  rw [OkM.bind_iff]
  refine OkM_reseed w _ ?_
  intro w1 hw1
  rw [OkM.bind_iff, OkM.liftC_iff, identityM16_eq, Ok.ok_iff]
  rw [OkM.bind_iff, OkM.liftC_iff, identityM16_eq, Ok.ok_iff]
  rw [OkM.bind_iff]
  refine (randM16_ok _ w1).withEq.mono ?_
  rintro T w2 ⟨hdraw, hw2⟩
  rw [OkM.bind_iff, OkM.liftC_iff, copyM16_eq, Ok.ok_iff]
  refine OkM.bind (P := fun s w' => genInv (matOf 16 (bitS 16)) (fun _ => True) T 16 s ∧
    DrawW w2 s w') ?_ ?_
  · refine OkM.forUp (fun i s w' => genInv (matOf 16 (bitS 16)) (fun _ => True) T i s ∧
      DrawW w2 s w') (Nat.zero_le _) ?_ ?_ (fun _ _ h => h)
    · refine ⟨⟨Tri.zero _, Nat.zero_le _, ⟨fun k _ h => absurd h (Nat.not_lt_zero _), ?_⟩, ?_,
        trivial, fun _ c h => absurd h (Nat.not_lt_zero _), fun h => by simp at h⟩, DrawW.refl _⟩
      · simp only [trailProd, Matrix.one_mul]; exact mat_id idOK16
      · simp only; rw [mat_id idOK16, Matrix.one_mul]
    · rintro i s w' - hi ⟨hI, hw'⟩
      exact genStep_spec hO (by omega) rfl T (Nat.zero_le _) hi hi hI hw'
  · rintro s w3 ⟨hs, hw3⟩
    rw [OkM.liftC_iff]
    have hW : GenWorld w w3 := (hw1.trans hw2).onlyIndex hw3.1
    rw [Ok.ite_iff]
    constructor
    · intro hv
      have hsing := singular_of_gen hs (by simpa using hv)
      refine Ok.bind (P := genBackInv (matOf 16 (bitS 16)) (fun _ => True) 0) ?_ ?_
      · refine Ok.forDown (genBackInv (matOf 16 (bitS 16)) (fun _ => True)) (Nat.zero_le _)
          (genBackInv_init hs) ?_ (fun _ h => h)
        intro i s _ hi hI
        exact genBack_spec hO (by omega) rfl (Nat.zero_le _) hi hi hI
      · rintro s ⟨hk, hT, hg⟩
        refine Ok.bind (replay_spec hO hT (Nat.le_trans hk (bwdOps_le (Nat.zero_le _)))
          (mat_id idOK16) trivial) ?_
        rintro A' ⟨hmul, hg'⟩
        rw [Ok.pure_iff]
        exact ⟨hmul, hW, w1, T, w2, hw1, hdraw, fun h => absurd (h.symm.trans hsing) (by decide)⟩
    · intro hv
      have hv' : s.invertible = true := by simpa using hv
      obtain ⟨hd, hb⟩ := backInv_of_gen hs hv'
      refine Ok.bind (P := backInv (matOf 16 (bitS 16)) (fun _ => True) ((mat16 T).det = 1) T 0) ?_ ?_
      · refine Ok.forDown (backInv (matOf 16 (bitS 16)) (fun _ => True) ((mat16 T).det = 1) T)
          (Nat.zero_le _) hb ?_ (fun _ h => h)
        intro i s _ hi hI
        exact backStep_spec hO _ T (Nat.zero_le _) hi hi hI
      · intro s hs
        obtain ⟨h1, h2, h3⟩ := backInv_final hs
        rw [copyM16_eq, C_pure_bind, Ok.pure_iff]
        exact ⟨mat_comm (h3 hd), hW, w1, T, w2, hw1, hdraw, fun _ => ⟨rfl, hw3.2 hv'⟩⟩

theorem genMatpairM16_ok (env : Env) (A0 B0 : M16) (w : World) :
    OkM (genMatpairM16 env A0 B0) w (fun p w' =>
      mat16 p.1 * mat16 p.2 = 1 ∧ GenWorld w w') :=
  (genMatpairM16_draw env A0 B0 w).mono (fun _ _ h => ⟨h.1, h.2.1⟩)

/-! ## Size 32 -/

theorem isinvertM32_ok (A : M32) : Ok (isinvertM32 A) (fun r =>
    (r = 0 ∨ r = 1) ∧ (r = 1 → (mat32 A).det = 1) ∧ ((mat32 A).det = 1 → r = 1)) := by
  have hO := opsS_ok idM32 idOK32
  unfold isinvertM32
  refine Ok.bind (P := Step.holds (isinvInv (matOf 32 (bitS 32)) (fun _ => True) A 32)
    (fun r => r = 0 ∧ (mat32 A).det = 0)) ?_ ?_
  · refine Ok.forRet (isinvInv (matOf 32 (bitS 32)) (fun _ => True) A) _ (Nat.zero_le _)
      ⟨Tri.zero _, fun c h => absurd h (Nat.not_lt_zero _), rfl, fun h => h⟩ ?_
      (fun _ h => h) (fun _ h => h)
    intro i s _ hi hI
    exact isinvStep_spec hO A (Nat.zero_le _) hi hi hI
  · intro st h
    match st, h with
    | .stop r, h =>
      obtain ⟨hr, hd⟩ : r = 0 ∧ (mat32 A).det = 0 := h
      simp only [Ok.pure_iff]
      subst hr
      rw [hd]
      exact ⟨Or.inl rfl, fun h => absurd h (by decide), by intro h; exact absurd h (by decide)⟩
    | .next B, h =>
      obtain ⟨hT, hD, hdet, hG⟩ : isinvInv (matOf 32 (bitS 32)) (fun _ => True) A 32 B := h
      have hone : (mat32 A).det = 1 := hdet ▸ det_one_of_tri hT (fun i => hD i i.2)
      rw [Ok.bind_iff, Ok_rd]
      refine ⟨by omega, ?_⟩
      rw [Ok.bind_iff, Ok_rd]
      refine ⟨by omega, ?_⟩
      rw [Ok.ite_iff, Ok.pure_iff, Ok.pure_iff]
      constructor
      · intro _; exact ⟨Or.inr rfl, fun _ => hone, by intro _; rfl⟩
      · intro hne
        refine ⟨Or.inl rfl, fun h => absurd h (by decide), ?_⟩
        intro _
        exact absurd (by simpa using lastRow (by omega) idOK32 hT hD (fun k hk => BitVec.getLsbD_of_ge _ _ hk)) hne

theorem invsM32_ok (A B0 : M32) : Ok (invsM32 A B0) (fun B =>
    (mat32 B).det = 1 ∧ ((mat32 A).det = 1 → mat32 B * mat32 A = 1)) := by
  have hO := opsS_ok idM32 idOK32
  unfold invsM32
  rw [identityM32_eq, C_pure_bind]
  refine Ok.bind (P := invsInv (matOf 32 (bitS 32)) (fun _ => True) A 32) ?_ ?_
  · refine Ok.forUp (invsInv (matOf 32 (bitS 32)) (fun _ => True) A) (Nat.zero_le _) ?_ ?_ (fun _ h => h)
    · refine ⟨Tri.zero _, ?_, ?_, trivial⟩
      · simp only; rw [mat_id idOK32, Matrix.one_mul]
      · simp only; rw [mat_id idOK32, det_one]
    · intro i s _ hi hI
      exact invsStep_spec hO A (Nat.zero_le _) hi hi hI
  · intro s hs
    refine Ok.bind (P := backInv (matOf 32 (bitS 32)) (fun _ => True) ((mat32 A).det = 1) A 0) ?_ ?_
    · refine Ok.forDown (backInv (matOf 32 (bitS 32)) (fun _ => True) ((mat32 A).det = 1) A)
        (Nat.zero_le _) (backInv_init hs) ?_ (fun _ h => h)
      intro i s _ hi hI
      exact backStep_spec hO _ A (Nat.zero_le _) hi hi hI
    · intro s hs
      rw [Ok.pure_iff]
      obtain ⟨h1, h2, h3⟩ := backInv_final hs
      exact ⟨h1, h3⟩


theorem randM32_ok (M : M32) (w : World) :
    OkM (randM32 M) w (fun _ w' => RandWorld w w') := by
  unfold randM32
  rw [OkM.bind_iff]
  refine OkM_reseed w _ ?_
  intro w1 h1
  refine (randRows_ok (fun r => r) (fun _ => True) (fun _ => trivial) M w1).mono ?_
  rintro M' w' ⟨-, hw⟩
  exact h1.onlyIndex hw


theorem genMatpairM32_draw (env : Env) (A0 B0 : M32) (w : World) :
    OkM (genMatpairM32 env A0 B0) w (fun p w' =>
      mat32 p.1 * mat32 p.2 = 1 ∧ GenWorld w w' ∧
      ∃ w1 T w2, RandWorld w w1 ∧ randM32 (env.junkArr 32 32) w1 = .ok (T, w2) ∧
        ((mat32 T).det = 1 → p.1 = T ∧ w' = w2)) := by
  have hO := opsS_ok idM32 idOK32
  unfold genMatpairM32
  rw [OkM.bind_iff]
  refine OkM_reseed w _ ?_
  intro w1 hw1
  rw [OkM.bind_iff, OkM.liftC_iff, identityM32_eq, Ok.ok_iff]
  rw [OkM.bind_iff, OkM.liftC_iff, identityM32_eq, Ok.ok_iff]
  rw [OkM.bind_iff]
  refine (randM32_ok _ w1).withEq.mono ?_
  rintro T w2 ⟨hdraw, hw2⟩
  rw [OkM.bind_iff, OkM.liftC_iff, copyM32_eq, Ok.ok_iff]
  refine OkM.bind (P := fun s w' => genInv (matOf 32 (bitS 32)) (fun _ => True) T 32 s ∧
    DrawW w2 s w') ?_ ?_
  · refine OkM.forUp (fun i s w' => genInv (matOf 32 (bitS 32)) (fun _ => True) T i s ∧
      DrawW w2 s w') (Nat.zero_le _) ?_ ?_ (fun _ _ h => h)
    · refine ⟨⟨Tri.zero _, Nat.zero_le _, ⟨fun k _ h => absurd h (Nat.not_lt_zero _), ?_⟩, ?_,
        trivial, fun _ c h => absurd h (Nat.not_lt_zero _), fun h => by simp at h⟩, DrawW.refl _⟩
      · simp only [trailProd, Matrix.one_mul]; exact mat_id idOK32
      · simp only; rw [mat_id idOK32, Matrix.one_mul]
    · rintro i s w' - hi ⟨hI, hw'⟩
      exact genStep_spec hO (by omega) rfl T (Nat.zero_le _) hi hi hI hw'
  · rintro s w3 ⟨hs, hw3⟩
    rw [OkM.liftC_iff]
    have hW : GenWorld w w3 := (hw1.trans hw2).onlyIndex hw3.1
    rw [Ok.ite_iff]
    constructor
    · intro hv
      have hsing := singular_of_gen hs (by simpa using hv)
      refine Ok.bind (P := genBackInv (matOf 32 (bitS 32)) (fun _ => True) 0) ?_ ?_
      · refine Ok.forDown (genBackInv (matOf 32 (bitS 32)) (fun _ => True)) (Nat.zero_le _)
          (genBackInv_init hs) ?_ (fun _ h => h)
        intro i s _ hi hI
        exact genBack_spec hO (by omega) rfl (Nat.zero_le _) hi hi hI
      · rintro s ⟨hk, hT, hg⟩
        refine Ok.bind (replay_spec hO hT (Nat.le_trans hk (bwdOps_le (Nat.zero_le _)))
          (mat_id idOK32) trivial) ?_
        rintro A' ⟨hmul, hg'⟩
        rw [Ok.pure_iff]
        exact ⟨hmul, hW, w1, T, w2, hw1, hdraw, fun h => absurd (h.symm.trans hsing) (by decide)⟩
    · intro hv
      have hv' : s.invertible = true := by simpa using hv
      obtain ⟨hd, hb⟩ := backInv_of_gen hs hv'
      refine Ok.bind (P := backInv (matOf 32 (bitS 32)) (fun _ => True) ((mat32 T).det = 1) T 0) ?_ ?_
      · refine Ok.forDown (backInv (matOf 32 (bitS 32)) (fun _ => True) ((mat32 T).det = 1) T)
          (Nat.zero_le _) hb ?_ (fun _ h => h)
        intro i s _ hi hI
        exact backStep_spec hO _ T (Nat.zero_le _) hi hi hI
      · intro s hs
        obtain ⟨h1, h2, h3⟩ := backInv_final hs
        rw [copyM32_eq, C_pure_bind, Ok.pure_iff]
        exact ⟨mat_comm (h3 hd), hW, w1, T, w2, hw1, hdraw, fun _ => ⟨rfl, hw3.2 hv'⟩⟩

theorem genMatpairM32_ok (env : Env) (A0 B0 : M32) (w : World) :
    OkM (genMatpairM32 env A0 B0) w (fun p w' =>
      mat32 p.1 * mat32 p.2 = 1 ∧ GenWorld w w') :=
  (genMatpairM32_draw env A0 B0 w).mono (fun _ _ h => ⟨h.1, h.2.1⟩)

/-! ## Size 64 -/

theorem isinvertM64_ok (A : M64) : Ok (isinvertM64 A) (fun r =>
    (r = 0 ∨ r = 1) ∧ (r = 1 → (mat64 A).det = 1) ∧ ((mat64 A).det = 1 → r = 1)) := by
  have hO := opsS_ok idM64 idOK64
  unfold isinvertM64
  refine Ok.bind (P := Step.holds (isinvInv (matOf 64 (bitS 64)) (fun _ => True) A 64)
    (fun r => r = 0 ∧ (mat64 A).det = 0)) ?_ ?_
  · refine Ok.forRet (isinvInv (matOf 64 (bitS 64)) (fun _ => True) A) _ (Nat.zero_le _)
      ⟨Tri.zero _, fun c h => absurd h (Nat.not_lt_zero _), rfl, fun h => h⟩ ?_
      (fun _ h => h) (fun _ h => h)
    intro i s _ hi hI
    exact isinvStep_spec hO A (Nat.zero_le _) hi hi hI
  · intro st h
    match st, h with
    | .stop r, h =>
      obtain ⟨hr, hd⟩ : r = 0 ∧ (mat64 A).det = 0 := h
      simp only [Ok.pure_iff]
      subst hr
      rw [hd]
      exact ⟨Or.inl rfl, fun h => absurd h (by decide), by intro h; exact absurd h (by decide)⟩
    | .next B, h =>
      obtain ⟨hT, hD, hdet, hG⟩ : isinvInv (matOf 64 (bitS 64)) (fun _ => True) A 64 B := h
      have hone : (mat64 A).det = 1 := hdet ▸ det_one_of_tri hT (fun i => hD i i.2)
      rw [Ok.bind_iff, Ok_rd]
      refine ⟨by omega, ?_⟩
      rw [Ok.bind_iff, Ok_rd]
      refine ⟨by omega, ?_⟩
      rw [Ok.ite_iff, Ok.pure_iff, Ok.pure_iff]
      constructor
      · intro _; exact ⟨Or.inr rfl, fun _ => hone, by intro _; rfl⟩
      · intro hne
        refine ⟨Or.inl rfl, fun h => absurd h (by decide), ?_⟩
        intro _
        exact absurd (by simpa using lastRow (by omega) idOK64 hT hD (fun k hk => BitVec.getLsbD_of_ge _ _ hk)) hne

theorem invsM64_ok (A B0 : M64) : Ok (invsM64 A B0) (fun B =>
    (mat64 B).det = 1 ∧ ((mat64 A).det = 1 → mat64 B * mat64 A = 1)) := by
  have hO := opsS_ok idM64 idOK64
  unfold invsM64
  rw [identityM64_eq, C_pure_bind]
  refine Ok.bind (P := invsInv (matOf 64 (bitS 64)) (fun _ => True) A 64) ?_ ?_
  · refine Ok.forUp (invsInv (matOf 64 (bitS 64)) (fun _ => True) A) (Nat.zero_le _) ?_ ?_ (fun _ h => h)
    · refine ⟨Tri.zero _, ?_, ?_, trivial⟩
      · simp only; rw [mat_id idOK64, Matrix.one_mul]
      · simp only; rw [mat_id idOK64, det_one]
    · intro i s _ hi hI
      exact invsStep_spec hO A (Nat.zero_le _) hi hi hI
  · intro s hs
    refine Ok.bind (P := backInv (matOf 64 (bitS 64)) (fun _ => True) ((mat64 A).det = 1) A 0) ?_ ?_
    · refine Ok.forDown (backInv (matOf 64 (bitS 64)) (fun _ => True) ((mat64 A).det = 1) A)
        (Nat.zero_le _) (backInv_init hs) ?_ (fun _ h => h)
      intro i s _ hi hI
      exact backStep_spec hO _ A (Nat.zero_le _) hi hi hI
    · intro s hs
      rw [Ok.pure_iff]
      obtain ⟨h1, h2, h3⟩ := backInv_final hs
      exact ⟨h1, h3⟩


theorem randM64_ok (env : Env) (M : M64) (w : World) :
    OkM (randM64 env M) w (fun _ w' => RandWorld w w') := by
  unfold randM64
  rw [OkM.bind_iff]
  refine OkM_reseed w _ ?_
  intro w1 h1
  refine OkM.mono (Q := fun _ w' => OnlyIndex w1 w') ?_ (fun _ _ h => h1.onlyIndex h)
  refine OkM.forUp (fun _ _ w' => OnlyIndex w1 w') (by omega) (OnlyIndex.refl _) ?_
    (fun _ _ h => h)
  intro i M w2 _ hi hw2
  rw [OkM.bind_iff]
  refine OkM_random ?_
  intro r0 w3 hw3
  replace hw2 := hw2.trans hw3
  obtain ⟨M0, hM0⟩ := stWord_ok env M hi 1 (by omega) r0
  rw [OkM.bind_iff, OkM.liftC_iff, hM0, Ok.ok_iff]
  rw [OkM.bind_iff]
  refine OkM_random ?_
  intro r1 w4 hw4
  replace hw2 := hw2.trans hw4
  obtain ⟨M1, hM1⟩ := stWord_ok env M0 hi 0 (by omega) r1
  rw [OkM.liftC_iff, hM1, Ok.ok_iff]
  exact hw2

theorem genMatpairM64_draw (env : Env) (A0 B0 : M64) (w : World) :
    OkM (genMatpairM64 env A0 B0) w (fun p w' =>
      mat64 p.1 * mat64 p.2 = 1 ∧ GenWorld w w' ∧
      ∃ w1 T w2, RandWorld w w1 ∧ randM64 env (env.junkArr 64 64) w1 = .ok (T, w2) ∧
        ((mat64 T).det = 1 → p.1 = T ∧ w' = w2)) := by
  have hO := opsS_ok idM64 idOK64
  unfold genMatpairM64
  rw [OkM.bind_iff]
  refine OkM_reseed w _ ?_
  intro w1 hw1
  rw [OkM.bind_iff, OkM.liftC_iff, identityM64_eq, Ok.ok_iff]
  rw [OkM.bind_iff, OkM.liftC_iff, identityM64_eq, Ok.ok_iff]
  rw [OkM.bind_iff]
  refine (randM64_ok env _ w1).withEq.mono ?_
  rintro T w2 ⟨hdraw, hw2⟩
  rw [OkM.bind_iff, OkM.liftC_iff, copyM64_eq, Ok.ok_iff]
  refine OkM.bind (P := fun s w' => genInv (matOf 64 (bitS 64)) (fun _ => True) T 64 s ∧
    DrawW w2 s w') ?_ ?_
  · refine OkM.forUp (fun i s w' => genInv (matOf 64 (bitS 64)) (fun _ => True) T i s ∧
      DrawW w2 s w') (Nat.zero_le _) ?_ ?_ (fun _ _ h => h)
    · refine ⟨⟨Tri.zero _, Nat.zero_le _, ⟨fun k _ h => absurd h (Nat.not_lt_zero _), ?_⟩, ?_,
        trivial, fun _ c h => absurd h (Nat.not_lt_zero _), fun h => by simp at h⟩, DrawW.refl _⟩
      · simp only [trailProd, Matrix.one_mul]; exact mat_id idOK64
      · simp only; rw [mat_id idOK64, Matrix.one_mul]
    · rintro i s w' - hi ⟨hI, hw'⟩
      exact genStep_spec hO (by omega) rfl T (Nat.zero_le _) hi hi hI hw'
  · rintro s w3 ⟨hs, hw3⟩
    rw [OkM.liftC_iff]
    have hW : GenWorld w w3 := (hw1.trans hw2).onlyIndex hw3.1
    rw [Ok.ite_iff]
    constructor
    · intro hv
      have hsing := singular_of_gen hs (by simpa using hv)
      refine Ok.bind (P := genBackInv (matOf 64 (bitS 64)) (fun _ => True) 0) ?_ ?_
      · refine Ok.forDown (genBackInv (matOf 64 (bitS 64)) (fun _ => True)) (Nat.zero_le _)
          (genBackInv_init hs) ?_ (fun _ h => h)
        intro i s _ hi hI
        exact genBack_spec hO (by omega) rfl (Nat.zero_le _) hi hi hI
      · rintro s ⟨hk, hT, hg⟩
        refine Ok.bind (replay_spec hO hT (Nat.le_trans hk (bwdOps_le (Nat.zero_le _)))
          (mat_id idOK64) trivial) ?_
        rintro A' ⟨hmul, hg'⟩
        rw [Ok.pure_iff]
        exact ⟨hmul, hW, w1, T, w2, hw1, hdraw, fun h => absurd (h.symm.trans hsing) (by decide)⟩
    · intro hv
      have hv' : s.invertible = true := by simpa using hv
      obtain ⟨hd, hb⟩ := backInv_of_gen hs hv'
      refine Ok.bind (P := backInv (matOf 64 (bitS 64)) (fun _ => True) ((mat64 T).det = 1) T 0) ?_ ?_
      · refine Ok.forDown (backInv (matOf 64 (bitS 64)) (fun _ => True) ((mat64 T).det = 1) T)
          (Nat.zero_le _) hb ?_ (fun _ h => h)
        intro i s _ hi hI
        exact backStep_spec hO _ T (Nat.zero_le _) hi hi hI
      · intro s hs
        obtain ⟨h1, h2, h3⟩ := backInv_final hs
        rw [copyM64_eq, C_pure_bind, Ok.pure_iff]
        exact ⟨mat_comm (h3 hd), hW, w1, T, w2, hw1, hdraw, fun _ => ⟨rfl, hw3.2 hv'⟩⟩

theorem genMatpairM64_ok (env : Env) (A0 B0 : M64) (w : World) :
    OkM (genMatpairM64 env A0 B0) w (fun p w' =>
      mat64 p.1 * mat64 p.2 = 1 ∧ GenWorld w w') :=
  (genMatpairM64_draw env A0 B0 w).mono (fun _ _ h => ⟨h.1, h.2.1⟩)

theorem opsW128_0 : OpsOK 128 (opsW (n := 128) (l := 2) idM64 0 0 [0, 1] [0, 1]) (matOf 128 bitW)
    (fun _ => True) 0 64 :=
  opsW_ok (by norm_num) idM64 idOK64 0 0 [0, 1] [0, 1] (by norm_num) (by norm_num)
    (by intro k; simp; omega) (by decide) (by intro k; simp; omega) (by decide)

theorem opsW128_1 : OpsOK 128 (opsW (n := 128) (l := 2) idM64 1 64 [1] [0, 1]) (matOf 128 bitW)
    (fun _ => True) 64 128 :=
  opsW_ok (by norm_num) idM64 idOK64 1 64 [1] [0, 1] (by norm_num) (by norm_num)
    (by intro k; simp; omega) (by decide) (by intro k; simp; omega) (by decide)

theorem isinvertM128_ok (A : M128) : Ok (isinvertM128 A) (fun r =>
    (r = 0 ∨ r = 1) ∧ (r = 1 → (mat128 A).det = 1) ∧ ((mat128 A).det = 1 → r = 1)) := by
  have hstop : ∀ r : Int, r = 0 ∧ (mat128 A).det = 0 →
      (r = 0 ∨ r = 1) ∧ (r = 1 → (mat128 A).det = 1) ∧ ((mat128 A).det = 1 → r = 1) := by
    rintro r ⟨rfl, hd⟩
    rw [hd]
    exact ⟨Or.inl rfl, fun h => absurd h (by decide), fun h => absurd h (by decide)⟩
  unfold isinvertM128
  refine Ok.bind (P := Step.holds (isinvInv (matOf 128 bitW) (fun _ => True) A 64)
    (fun r => r = 0 ∧ (mat128 A).det = 0)) ?_ ?_
  · refine Ok.forRet (isinvInv (matOf 128 bitW) (fun _ => True) A) _ (by omega)
      ⟨Tri.zero _, fun c h => absurd h (Nat.not_lt_zero _), rfl, fun h => h⟩ ?_
      (fun _ h => h) (fun _ h => h)
    intro i s hl hi hI
    exact isinvStep_spec opsW128_0 A hl hi (by omega) hI
  intro st h
  match st, h with
  | .stop r, h => exact (Ok.pure_iff _ _).2 (hstop r h)
  | .next B1, h1 =>
    refine Ok.bind (P := Step.holds (isinvInv (matOf 128 bitW) (fun _ => True) A 128)
      (fun r => r = 0 ∧ (mat128 A).det = 0)) ?_ ?_
    · refine Ok.forRet (isinvInv (matOf 128 bitW) (fun _ => True) A) _ (by omega)
        h1 ?_
        (fun _ h => h) (fun _ h => h)
      intro i s hl hi hI
      exact isinvStep_spec opsW128_1 A hl hi (by omega) hI
    intro st h
    match st, h with
    | .stop r, h => exact (Ok.pure_iff _ _).2 (hstop r h)
    | .next B2, h2 =>
      obtain ⟨hT, hD, hdet, -⟩ : isinvInv (matOf 128 bitW) (fun _ => True) A 128 B2 := h2
      have hone : (mat128 A).det = 1 := hdet ▸ det_one_of_tri hT (fun i => hD i i.2)
      rw [Ok.bind_iff, Ok_rd2]
      refine ⟨by omega, by omega, ?_⟩
      rw [Ok.bind_iff, Ok_rd]
      refine ⟨by omega, ?_⟩
      rw [Ok.ite_iff, Ok.pure_iff, Ok.pure_iff]
      constructor
      · intro _; exact ⟨Or.inr rfl, fun _ => hone, fun _ => rfl⟩
      · intro hne
        exact absurd (by simpa using lastRowW (l := 2) (by norm_num) (by omega) hT hD) hne

theorem invsM128_ok (A B0 : M128) : Ok (invsM128 A B0) (fun B =>
    (mat128 B).det = 1 ∧ ((mat128 A).det = 1 → mat128 B * mat128 A = 1)) := by
  unfold invsM128
  refine Ok.bind (identityM128_ok B0) ?_
  intro B1 hB1
  have h0 : invsInv (matOf 128 bitW) (fun _ => True) A 0 (A, B1) :=
    ⟨Tri.zero _, by simp only; rw [hB1, Matrix.one_mul], by simp only; rw [hB1, det_one], trivial⟩
  refine Ok.bind (P := invsInv (matOf 128 bitW) (fun _ => True) A 64) ?_ ?_
  · refine Ok.forUp (invsInv (matOf 128 bitW) (fun _ => True) A) (by omega) h0 ?_ (fun _ h => h)
    intro i s hl hi hI
    exact invsStep_spec opsW128_0 A hl hi (by omega) hI
  intro s1 h1
  refine Ok.bind (P := invsInv (matOf 128 bitW) (fun _ => True) A 128) ?_ ?_
  · refine Ok.forUp (invsInv (matOf 128 bitW) (fun _ => True) A) (by omega) h1 ?_ (fun _ h => h)
    intro i s hl hi hI
    exact invsStep_spec opsW128_1 A hl hi (by omega) hI
  intro s2 h2
  have b2 := backInv_init h2
  refine Ok.bind (P := backInv (matOf 128 bitW) (fun _ => True) ((mat128 A).det = 1) A 64) ?_ ?_
  · refine Ok.forDown (backInv (matOf 128 bitW) (fun _ => True) ((mat128 A).det = 1) A)
      (by omega) b2 ?_ (fun _ h => h)
    intro i s hl hi hI
    exact backStep_spec opsW128_1 _ A hl hi (by omega) hI
  intro t1 b1
  refine Ok.bind (P := backInv (matOf 128 bitW) (fun _ => True) ((mat128 A).det = 1) A 0) ?_ ?_
  · refine Ok.forDown (backInv (matOf 128 bitW) (fun _ => True) ((mat128 A).det = 1) A)
      (by omega) b1 ?_ (fun _ h => h)
    intro i s hl hi hI
    exact backStep_spec opsW128_0 _ A hl hi (by omega) hI
  intro t0 b0
  rw [Ok.pure_iff]
  obtain ⟨h1, -, h3⟩ := backInv_final b0
  exact ⟨h1, h3⟩

theorem randM128_ok (env : Env) (M : M128) (w : World) :
    OkM (randM128 env M) w (fun _ w' => RandWorld w w') := by
  unfold randM128
  rw [OkM.bind_iff]
  refine OkM_reseed w _ ?_
  intro w1 h1
  refine OkM.mono (Q := fun _ w' => OnlyIndex w1 w') ?_ (fun _ _ h => h1.onlyIndex h)
  refine OkM.forUp (fun _ _ w' => OnlyIndex w1 w') (by omega) (OnlyIndex.refl _) ?_
    (fun _ _ h => h)
  intro i M w2 _ hi hw2
  rw [OkM.bind_iff]
  refine OkM_random ?_
  intro r0 w3 hw3
  replace hw2 := hw2.trans hw3
  obtain ⟨M0, hM0⟩ := stWord2_ok env M hi (c := 0) (by omega) 1 (by omega) r0
  rw [OkM.bind_iff, OkM.liftC_iff, hM0, Ok.ok_iff]
  rw [OkM.bind_iff]
  refine OkM_random ?_
  intro r1 w4 hw4
  replace hw2 := hw2.trans hw4
  obtain ⟨M1, hM1⟩ := stWord2_ok env M0 hi (c := 0) (by omega) 0 (by omega) r1
  rw [OkM.bind_iff, OkM.liftC_iff, hM1, Ok.ok_iff]
  rw [OkM.bind_iff]
  refine OkM_random ?_
  intro r2 w5 hw5
  replace hw2 := hw2.trans hw5
  obtain ⟨M2, hM2⟩ := stWord2_ok env M1 hi (c := 1) (by omega) 1 (by omega) r2
  rw [OkM.bind_iff, OkM.liftC_iff, hM2, Ok.ok_iff]
  rw [OkM.bind_iff]
  refine OkM_random ?_
  intro r3 w6 hw6
  replace hw2 := hw2.trans hw6
  obtain ⟨M3, hM3⟩ := stWord2_ok env M2 hi (c := 1) (by omega) 0 (by omega) r3
  rw [OkM.liftC_iff, hM3, Ok.ok_iff]
  exact hw2

theorem genMatpairM128_draw (env : Env) (A0 B0 : M128) (w : World) :
    OkM (genMatpairM128 env A0 B0) w (fun p w' =>
      mat128 p.1 * mat128 p.2 = 1 ∧ GenWorld w w' ∧
      ∃ w1 T w2, RandWorld w w1 ∧ randM128 env (env.junkArr2 64 2 128) w1 = .ok (T, w2) ∧
        ((mat128 T).det = 1 → p.1 = T ∧ w' = w2)) := by
  unfold genMatpairM128
  rw [OkM.bind_iff]
  refine OkM_reseed w _ ?_
  intro w1 hw1
  rw [OkM.bind_iff, OkM.liftC_iff]
  refine (identityM128_ok A0).mono ?_
  intro A1 hA1
  rw [OkM.bind_iff, OkM.liftC_iff]
  refine (identityM128_ok B0).mono ?_
  intro B1 hB1
  rw [OkM.bind_iff]
  refine (randM128_ok env _ w1).withEq.mono ?_
  rintro T w2 ⟨hdraw, hw2⟩
  rw [OkM.bind_iff, OkM.liftC_iff, copyM128_eq, Ok.ok_iff]
  have h0 : genInv (matOf 128 bitW) (fun _ => True) T 0 (GenSt.mk (t := 16384) T B1 (env.junkArr2 8 3 16384) 0 true) ∧
      DrawW w2 (GenSt.mk (t := 16384) T B1 (env.junkArr2 8 3 16384) 0 true) w2 := by
    refine ⟨⟨Tri.zero _, Nat.zero_le _, ⟨fun k _ h => absurd h (Nat.not_lt_zero _), ?_⟩, ?_,
      trivial, fun _ c h => absurd h (Nat.not_lt_zero _), fun h => by simp at h⟩, DrawW.refl _⟩
    · simp only [trailProd, Matrix.one_mul]; exact hB1
    · simp only; rw [hB1, Matrix.one_mul]
  refine OkM.bind (P := fun s w' => genInv (matOf 128 bitW) (fun _ => True) T 64 s ∧ DrawW w2 s w') ?_ ?_
  · refine OkM.forUp (fun i s w' => genInv (matOf 128 bitW) (fun _ => True) T i s ∧ DrawW w2 s w') (by omega) h0 ?_
      (fun _ _ h => h)
    rintro i s w' hl hi ⟨hI, hw'⟩
    have key := genStep_spec opsW128_0 (by omega) (by norm_num) T hl hi (by omega) hI hw'
    rw [← genStepNG_eq (n := 128) (by omega)] at key
    exact key
  intro s1 v1 h1
  refine OkM.bind (P := fun s w' => genInv (matOf 128 bitW) (fun _ => True) T 128 s ∧ DrawW w2 s w') ?_ ?_
  · refine OkM.forUp (fun i s w' => genInv (matOf 128 bitW) (fun _ => True) T i s ∧ DrawW w2 s w') (by omega) h1 ?_
      (fun _ _ h => h)
    rintro i s w' hl hi ⟨hI, hw'⟩
    exact genStep_spec opsW128_1 (by omega) (by norm_num) T hl hi (by omega) hI hw'
  intro s2 v2 h2
  obtain ⟨hs, hw3⟩ := h2
  rw [OkM.liftC_iff]
  have hW : GenWorld w v2 := (hw1.trans hw2).onlyIndex hw3.1
  rw [Ok.ite_iff]
  constructor
  · intro hv
    have hsing := singular_of_gen hs (by simpa using hv)
    have b2 := genBackInv_init hs
    refine Ok.bind (P := genBackInv (matOf 128 bitW) (fun _ => True) 64) ?_ ?_
    · refine Ok.forDown (genBackInv (matOf 128 bitW) (fun _ => True)) (by omega) b2 ?_ (fun _ h => h)
      intro i s hl hi hI
      exact genBack_spec opsW128_1 (by omega) (by norm_num) hl hi (by omega) hI
    intro u1 b1
    refine Ok.bind (P := genBackInv (matOf 128 bitW) (fun _ => True) 0) ?_ ?_
    · refine Ok.forDown (genBackInv (matOf 128 bitW) (fun _ => True)) (by omega) b1 ?_ (fun _ h => h)
      intro i s hl hi hI
      exact genBack_spec opsW128_0 (by omega) (by norm_num) hl hi (by omega) hI
    intro u0 b0
    obtain ⟨hk, hT, hg⟩ := b0
    refine Ok.bind (replay_spec opsW128_0 hT (Nat.le_trans hk
      (Nat.le_trans (bwdOps_le (Nat.zero_le _)) (by norm_num))) hA1 trivial) ?_
    rintro A' ⟨hmul, -⟩
    rw [Ok.pure_iff]
    exact ⟨hmul, hW, w1, T, w2, hw1, hdraw, fun h => absurd (h.symm.trans hsing) (by decide)⟩
  · intro hv
    have hv' : s2.invertible = true := by simpa using hv
    obtain ⟨hd, b2⟩ := backInv_of_gen hs hv'
    refine Ok.bind (P := backInv (matOf 128 bitW) (fun _ => True) ((mat128 T).det = 1) T 64) ?_ ?_
    · refine Ok.forDown (backInv (matOf 128 bitW) (fun _ => True) ((mat128 T).det = 1) T)
        (by omega) b2 ?_ (fun _ h => h)
      intro i s hl hi hI
      exact backStep_spec opsW128_1 _ T hl hi (by omega) hI
    intro u1 b1
    refine Ok.bind (P := backInv (matOf 128 bitW) (fun _ => True) ((mat128 T).det = 1) T 0) ?_ ?_
    · refine Ok.forDown (backInv (matOf 128 bitW) (fun _ => True) ((mat128 T).det = 1) T)
        (by omega) b1 ?_ (fun _ h => h)
      intro i s hl hi hI
      exact backStep_spec opsW128_0 _ T hl hi (by omega) hI
    intro u0 b0
    obtain ⟨h1, -, h3⟩ := backInv_final b0
    rw [copyM128_eq, C_pure_bind, Ok.pure_iff]
    exact ⟨mat_comm (h3 hd), hW, w1, T, w2, hw1, hdraw, fun _ => ⟨rfl, hw3.2 hv'⟩⟩

theorem genMatpairM128_ok (env : Env) (A0 B0 : M128) (w : World) :
    OkM (genMatpairM128 env A0 B0) w (fun p w' =>
      mat128 p.1 * mat128 p.2 = 1 ∧ GenWorld w w') :=
  (genMatpairM128_draw env A0 B0 w).mono (fun _ _ h => ⟨h.1, h.2.1⟩)

theorem opsW256_0 : OpsOK 256 (opsW (n := 256) (l := 4) idM64 0 0 [0, 1, 2, 3] [0, 1, 2, 3]) (matOf 256 bitW)
    (fun _ => True) 0 64 :=
  opsW_ok (by norm_num) idM64 idOK64 0 0 [0, 1, 2, 3] [0, 1, 2, 3] (by norm_num) (by norm_num)
    (by intro k; simp; omega) (by decide) (by intro k; simp; omega) (by decide)

theorem opsW256_1 : OpsOK 256 (opsW (n := 256) (l := 4) idM64 1 64 [1, 2, 3] [0, 1, 2, 3]) (matOf 256 bitW)
    (fun _ => True) 64 128 :=
  opsW_ok (by norm_num) idM64 idOK64 1 64 [1, 2, 3] [0, 1, 2, 3] (by norm_num) (by norm_num)
    (by intro k; simp; omega) (by decide) (by intro k; simp; omega) (by decide)

theorem opsW256_2 : OpsOK 256 (opsW (n := 256) (l := 4) idM64 2 128 [2, 3] [0, 1, 2, 3]) (matOf 256 bitW)
    (fun _ => True) 128 192 :=
  opsW_ok (by norm_num) idM64 idOK64 2 128 [2, 3] [0, 1, 2, 3] (by norm_num) (by norm_num)
    (by intro k; simp; omega) (by decide) (by intro k; simp; omega) (by decide)

theorem opsW256_3 : OpsOK 256 (opsW (n := 256) (l := 4) idM64 3 192 [3] [0, 1, 2, 3]) (matOf 256 bitW)
    (fun _ => True) 192 256 :=
  opsW_ok (by norm_num) idM64 idOK64 3 192 [3] [0, 1, 2, 3] (by norm_num) (by norm_num)
    (by intro k; simp; omega) (by decide) (by intro k; simp; omega) (by decide)

theorem isinvertM256_ok (A : M256) : Ok (isinvertM256 A) (fun r =>
    (r = 0 ∨ r = 1) ∧ (r = 1 → (mat256 A).det = 1) ∧ ((mat256 A).det = 1 → r = 1)) := by
  have hstop : ∀ r : Int, r = 0 ∧ (mat256 A).det = 0 →
      (r = 0 ∨ r = 1) ∧ (r = 1 → (mat256 A).det = 1) ∧ ((mat256 A).det = 1 → r = 1) := by
    rintro r ⟨rfl, hd⟩
    rw [hd]
    exact ⟨Or.inl rfl, fun h => absurd h (by decide), fun h => absurd h (by decide)⟩
  unfold isinvertM256
  refine Ok.bind (P := Step.holds (isinvInv (matOf 256 bitW) (fun _ => True) A 64)
    (fun r => r = 0 ∧ (mat256 A).det = 0)) ?_ ?_
  · refine Ok.forRet (isinvInv (matOf 256 bitW) (fun _ => True) A) _ (by omega)
      ⟨Tri.zero _, fun c h => absurd h (Nat.not_lt_zero _), rfl, fun h => h⟩ ?_
      (fun _ h => h) (fun _ h => h)
    intro i s hl hi hI
    exact isinvStep_spec opsW256_0 A hl hi (by omega) hI
  intro st h
  match st, h with
  | .stop r, h => exact (Ok.pure_iff _ _).2 (hstop r h)
  | .next B1, h1 =>
    refine Ok.bind (P := Step.holds (isinvInv (matOf 256 bitW) (fun _ => True) A 128)
      (fun r => r = 0 ∧ (mat256 A).det = 0)) ?_ ?_
    · refine Ok.forRet (isinvInv (matOf 256 bitW) (fun _ => True) A) _ (by omega)
        h1 ?_
        (fun _ h => h) (fun _ h => h)
      intro i s hl hi hI
      exact isinvStep_spec opsW256_1 A hl hi (by omega) hI
    intro st h
    match st, h with
    | .stop r, h => exact (Ok.pure_iff _ _).2 (hstop r h)
    | .next B2, h2 =>
      refine Ok.bind (P := Step.holds (isinvInv (matOf 256 bitW) (fun _ => True) A 192)
        (fun r => r = 0 ∧ (mat256 A).det = 0)) ?_ ?_
      · refine Ok.forRet (isinvInv (matOf 256 bitW) (fun _ => True) A) _ (by omega)
          h2 ?_
          (fun _ h => h) (fun _ h => h)
        intro i s hl hi hI
        exact isinvStep_spec opsW256_2 A hl hi (by omega) hI
      intro st h
      match st, h with
      | .stop r, h => exact (Ok.pure_iff _ _).2 (hstop r h)
      | .next B3, h3 =>
        refine Ok.bind (P := Step.holds (isinvInv (matOf 256 bitW) (fun _ => True) A 256)
          (fun r => r = 0 ∧ (mat256 A).det = 0)) ?_ ?_
        · refine Ok.forRet (isinvInv (matOf 256 bitW) (fun _ => True) A) _ (by omega)
            h3 ?_
            (fun _ h => h) (fun _ h => h)
          intro i s hl hi hI
          exact isinvStep_spec opsW256_3 A hl hi (by omega) hI
        intro st h
        match st, h with
        | .stop r, h => exact (Ok.pure_iff _ _).2 (hstop r h)
        | .next B4, h4 =>
          obtain ⟨hT, hD, hdet, -⟩ : isinvInv (matOf 256 bitW) (fun _ => True) A 256 B4 := h4
          have hone : (mat256 A).det = 1 := hdet ▸ det_one_of_tri hT (fun i => hD i i.2)
          rw [Ok.bind_iff, Ok_rd2]
          refine ⟨by omega, by omega, ?_⟩
          rw [Ok.bind_iff, Ok_rd]
          refine ⟨by omega, ?_⟩
          rw [Ok.ite_iff, Ok.pure_iff, Ok.pure_iff]
          constructor
          · intro _; exact ⟨Or.inr rfl, fun _ => hone, fun _ => rfl⟩
          · intro hne
            exact absurd (by simpa using lastRowW (l := 4) (by norm_num) (by omega) hT hD) hne

theorem invsM256_ok (A B0 : M256) : Ok (invsM256 A B0) (fun B =>
    (mat256 B).det = 1 ∧ ((mat256 A).det = 1 → mat256 B * mat256 A = 1)) := by
  unfold invsM256
  refine Ok.bind (identityM256_ok B0) ?_
  intro B1 hB1
  have h0 : invsInv (matOf 256 bitW) (fun _ => True) A 0 (A, B1) :=
    ⟨Tri.zero _, by simp only; rw [hB1, Matrix.one_mul], by simp only; rw [hB1, det_one], trivial⟩
  refine Ok.bind (P := invsInv (matOf 256 bitW) (fun _ => True) A 64) ?_ ?_
  · refine Ok.forUp (invsInv (matOf 256 bitW) (fun _ => True) A) (by omega) h0 ?_ (fun _ h => h)
    intro i s hl hi hI
    exact invsStep_spec opsW256_0 A hl hi (by omega) hI
  intro s1 h1
  refine Ok.bind (P := invsInv (matOf 256 bitW) (fun _ => True) A 128) ?_ ?_
  · refine Ok.forUp (invsInv (matOf 256 bitW) (fun _ => True) A) (by omega) h1 ?_ (fun _ h => h)
    intro i s hl hi hI
    exact invsStep_spec opsW256_1 A hl hi (by omega) hI
  intro s2 h2
  refine Ok.bind (P := invsInv (matOf 256 bitW) (fun _ => True) A 192) ?_ ?_
  · refine Ok.forUp (invsInv (matOf 256 bitW) (fun _ => True) A) (by omega) h2 ?_ (fun _ h => h)
    intro i s hl hi hI
    exact invsStep_spec opsW256_2 A hl hi (by omega) hI
  intro s3 h3
  refine Ok.bind (P := invsInv (matOf 256 bitW) (fun _ => True) A 256) ?_ ?_
  · refine Ok.forUp (invsInv (matOf 256 bitW) (fun _ => True) A) (by omega) h3 ?_ (fun _ h => h)
    intro i s hl hi hI
    exact invsStep_spec opsW256_3 A hl hi (by omega) hI
  intro s4 h4
  have b4 := backInv_init h4
  refine Ok.bind (P := backInv (matOf 256 bitW) (fun _ => True) ((mat256 A).det = 1) A 192) ?_ ?_
  · refine Ok.forDown (backInv (matOf 256 bitW) (fun _ => True) ((mat256 A).det = 1) A)
      (by omega) b4 ?_ (fun _ h => h)
    intro i s hl hi hI
    exact backStep_spec opsW256_3 _ A hl hi (by omega) hI
  intro t3 b3
  refine Ok.bind (P := backInv (matOf 256 bitW) (fun _ => True) ((mat256 A).det = 1) A 128) ?_ ?_
  · refine Ok.forDown (backInv (matOf 256 bitW) (fun _ => True) ((mat256 A).det = 1) A)
      (by omega) b3 ?_ (fun _ h => h)
    intro i s hl hi hI
    exact backStep_spec opsW256_2 _ A hl hi (by omega) hI
  intro t2 b2
  refine Ok.bind (P := backInv (matOf 256 bitW) (fun _ => True) ((mat256 A).det = 1) A 64) ?_ ?_
  · refine Ok.forDown (backInv (matOf 256 bitW) (fun _ => True) ((mat256 A).det = 1) A)
      (by omega) b2 ?_ (fun _ h => h)
    intro i s hl hi hI
    exact backStep_spec opsW256_1 _ A hl hi (by omega) hI
  intro t1 b1
  refine Ok.bind (P := backInv (matOf 256 bitW) (fun _ => True) ((mat256 A).det = 1) A 0) ?_ ?_
  · refine Ok.forDown (backInv (matOf 256 bitW) (fun _ => True) ((mat256 A).det = 1) A)
      (by omega) b1 ?_ (fun _ h => h)
    intro i s hl hi hI
    exact backStep_spec opsW256_0 _ A hl hi (by omega) hI
  intro t0 b0
  rw [Ok.pure_iff]
  obtain ⟨h1, -, h3⟩ := backInv_final b0
  exact ⟨h1, h3⟩

theorem randM256_ok (env : Env) (M : M256) (w : World) :
    OkM (randM256 env M) w (fun _ w' => RandWorld w w') := by
  unfold randM256
  rw [OkM.bind_iff]
  refine OkM_reseed w _ ?_
  intro w1 h1
  refine OkM.mono (Q := fun _ w' => OnlyIndex w1 w') ?_ (fun _ _ h => h1.onlyIndex h)
  refine OkM.forUp (fun _ _ w' => OnlyIndex w1 w') (by omega) (OnlyIndex.refl _) ?_
    (fun _ _ h => h)
  intro i M w2 _ hi hw2
  rw [OkM.bind_iff]
  refine OkM_random ?_
  intro r0 w3 hw3
  replace hw2 := hw2.trans hw3
  obtain ⟨M0, hM0⟩ := stWord2_ok env M hi (c := 0) (by omega) 1 (by omega) r0
  rw [OkM.bind_iff, OkM.liftC_iff, hM0, Ok.ok_iff]
  rw [OkM.bind_iff]
  refine OkM_random ?_
  intro r1 w4 hw4
  replace hw2 := hw2.trans hw4
  obtain ⟨M1, hM1⟩ := stWord2_ok env M0 hi (c := 0) (by omega) 0 (by omega) r1
  rw [OkM.bind_iff, OkM.liftC_iff, hM1, Ok.ok_iff]
  rw [OkM.bind_iff]
  refine OkM_random ?_
  intro r2 w5 hw5
  replace hw2 := hw2.trans hw5
  obtain ⟨M2, hM2⟩ := stWord2_ok env M1 hi (c := 1) (by omega) 1 (by omega) r2
  rw [OkM.bind_iff, OkM.liftC_iff, hM2, Ok.ok_iff]
  rw [OkM.bind_iff]
  refine OkM_random ?_
  intro r3 w6 hw6
  replace hw2 := hw2.trans hw6
  obtain ⟨M3, hM3⟩ := stWord2_ok env M2 hi (c := 1) (by omega) 0 (by omega) r3
  rw [OkM.bind_iff, OkM.liftC_iff, hM3, Ok.ok_iff]
  rw [OkM.bind_iff]
  refine OkM_random ?_
  intro r4 w7 hw7
  replace hw2 := hw2.trans hw7
  obtain ⟨M4, hM4⟩ := stWord2_ok env M3 hi (c := 2) (by omega) 1 (by omega) r4
  rw [OkM.bind_iff, OkM.liftC_iff, hM4, Ok.ok_iff]
  rw [OkM.bind_iff]
  refine OkM_random ?_
  intro r5 w8 hw8
  replace hw2 := hw2.trans hw8
  obtain ⟨M5, hM5⟩ := stWord2_ok env M4 hi (c := 2) (by omega) 0 (by omega) r5
  rw [OkM.bind_iff, OkM.liftC_iff, hM5, Ok.ok_iff]
  rw [OkM.bind_iff]
  refine OkM_random ?_
  intro r6 w9 hw9
  replace hw2 := hw2.trans hw9
  obtain ⟨M6, hM6⟩ := stWord2_ok env M5 hi (c := 3) (by omega) 1 (by omega) r6
  rw [OkM.bind_iff, OkM.liftC_iff, hM6, Ok.ok_iff]
  rw [OkM.bind_iff]
  refine OkM_random ?_
  intro r7 w10 hw10
  replace hw2 := hw2.trans hw10
  obtain ⟨M7, hM7⟩ := stWord2_ok env M6 hi (c := 3) (by omega) 0 (by omega) r7
  rw [OkM.liftC_iff, hM7, Ok.ok_iff]
  exact hw2

theorem genMatpairM256_draw (env : Env) (A0 B0 : M256) (w : World) :
    OkM (genMatpairM256 env A0 B0) w (fun p w' =>
      mat256 p.1 * mat256 p.2 = 1 ∧ GenWorld w w' ∧
      ∃ w1 T w2, RandWorld w w1 ∧ randM256 env (env.junkArr2 64 4 256) w1 = .ok (T, w2) ∧
        ((mat256 T).det = 1 → p.1 = T ∧ w' = w2)) := by
  unfold genMatpairM256
  rw [OkM.bind_iff]
  refine OkM_reseed w _ ?_
  intro w1 hw1
  rw [OkM.bind_iff, OkM.liftC_iff]
  refine (identityM256_ok A0).mono ?_
  intro A1 hA1
  rw [OkM.bind_iff, OkM.liftC_iff]
  refine (identityM256_ok B0).mono ?_
  intro B1 hB1
  rw [OkM.bind_iff]
  refine (randM256_ok env _ w1).withEq.mono ?_
  rintro T w2 ⟨hdraw, hw2⟩
  rw [OkM.bind_iff, OkM.liftC_iff, copyM256_eq, Ok.ok_iff]
  have h0 : genInv (matOf 256 bitW) (fun _ => True) T 0 (GenSt.mk (t := 65536) T B1 (env.junkArr2 8 3 65536) 0 true) ∧
      DrawW w2 (GenSt.mk (t := 65536) T B1 (env.junkArr2 8 3 65536) 0 true) w2 := by
    refine ⟨⟨Tri.zero _, Nat.zero_le _, ⟨fun k _ h => absurd h (Nat.not_lt_zero _), ?_⟩, ?_,
      trivial, fun _ c h => absurd h (Nat.not_lt_zero _), fun h => by simp at h⟩, DrawW.refl _⟩
    · simp only [trailProd, Matrix.one_mul]; exact hB1
    · simp only; rw [hB1, Matrix.one_mul]
  refine OkM.bind (P := fun s w' => genInv (matOf 256 bitW) (fun _ => True) T 64 s ∧ DrawW w2 s w') ?_ ?_
  · refine OkM.forUp (fun i s w' => genInv (matOf 256 bitW) (fun _ => True) T i s ∧ DrawW w2 s w') (by omega) h0 ?_
      (fun _ _ h => h)
    rintro i s w' hl hi ⟨hI, hw'⟩
    have key := genStep_spec opsW256_0 (by omega) (by norm_num) T hl hi (by omega) hI hw'
    rw [← genStepNG_eq (n := 256) (by omega)] at key
    exact key
  intro s1 v1 h1
  refine OkM.bind (P := fun s w' => genInv (matOf 256 bitW) (fun _ => True) T 128 s ∧ DrawW w2 s w') ?_ ?_
  · refine OkM.forUp (fun i s w' => genInv (matOf 256 bitW) (fun _ => True) T i s ∧ DrawW w2 s w') (by omega) h1 ?_
      (fun _ _ h => h)
    rintro i s w' hl hi ⟨hI, hw'⟩
    have key := genStep_spec opsW256_1 (by omega) (by norm_num) T hl hi (by omega) hI hw'
    rw [← genStepNG_eq (n := 256) (by omega)] at key
    exact key
  intro s2 v2 h2
  refine OkM.bind (P := fun s w' => genInv (matOf 256 bitW) (fun _ => True) T 192 s ∧ DrawW w2 s w') ?_ ?_
  · refine OkM.forUp (fun i s w' => genInv (matOf 256 bitW) (fun _ => True) T i s ∧ DrawW w2 s w') (by omega) h2 ?_
      (fun _ _ h => h)
    rintro i s w' hl hi ⟨hI, hw'⟩
    have key := genStep_spec opsW256_2 (by omega) (by norm_num) T hl hi (by omega) hI hw'
    rw [← genStepNG_eq (n := 256) (by omega)] at key
    exact key
  intro s3 v3 h3
  refine OkM.bind (P := fun s w' => genInv (matOf 256 bitW) (fun _ => True) T 256 s ∧ DrawW w2 s w') ?_ ?_
  · refine OkM.forUp (fun i s w' => genInv (matOf 256 bitW) (fun _ => True) T i s ∧ DrawW w2 s w') (by omega) h3 ?_
      (fun _ _ h => h)
    rintro i s w' hl hi ⟨hI, hw'⟩
    exact genStep_spec opsW256_3 (by omega) (by norm_num) T hl hi (by omega) hI hw'
  intro s4 v4 h4
  obtain ⟨hs, hw3⟩ := h4
  rw [OkM.liftC_iff]
  have hW : GenWorld w v4 := (hw1.trans hw2).onlyIndex hw3.1
  rw [Ok.ite_iff]
  constructor
  · intro hv
    have hsing := singular_of_gen hs (by simpa using hv)
    have b4 := genBackInv_init hs
    refine Ok.bind (P := genBackInv (matOf 256 bitW) (fun _ => True) 192) ?_ ?_
    · refine Ok.forDown (genBackInv (matOf 256 bitW) (fun _ => True)) (by omega) b4 ?_ (fun _ h => h)
      intro i s hl hi hI
      exact genBack_spec opsW256_3 (by omega) (by norm_num) hl hi (by omega) hI
    intro u3 b3
    refine Ok.bind (P := genBackInv (matOf 256 bitW) (fun _ => True) 128) ?_ ?_
    · refine Ok.forDown (genBackInv (matOf 256 bitW) (fun _ => True)) (by omega) b3 ?_ (fun _ h => h)
      intro i s hl hi hI
      exact genBack_spec opsW256_2 (by omega) (by norm_num) hl hi (by omega) hI
    intro u2 b2
    refine Ok.bind (P := genBackInv (matOf 256 bitW) (fun _ => True) 64) ?_ ?_
    · refine Ok.forDown (genBackInv (matOf 256 bitW) (fun _ => True)) (by omega) b2 ?_ (fun _ h => h)
      intro i s hl hi hI
      exact genBack_spec opsW256_1 (by omega) (by norm_num) hl hi (by omega) hI
    intro u1 b1
    refine Ok.bind (P := genBackInv (matOf 256 bitW) (fun _ => True) 0) ?_ ?_
    · refine Ok.forDown (genBackInv (matOf 256 bitW) (fun _ => True)) (by omega) b1 ?_ (fun _ h => h)
      intro i s hl hi hI
      exact genBack_spec opsW256_0 (by omega) (by norm_num) hl hi (by omega) hI
    intro u0 b0
    obtain ⟨hk, hT, hg⟩ := b0
    refine Ok.bind (replay_spec opsW256_0 hT (Nat.le_trans hk
      (Nat.le_trans (bwdOps_le (Nat.zero_le _)) (by norm_num))) hA1 trivial) ?_
    rintro A' ⟨hmul, -⟩
    rw [Ok.pure_iff]
    exact ⟨hmul, hW, w1, T, w2, hw1, hdraw, fun h => absurd (h.symm.trans hsing) (by decide)⟩
  · intro hv
    have hv' : s4.invertible = true := by simpa using hv
    obtain ⟨hd, b4⟩ := backInv_of_gen hs hv'
    refine Ok.bind (P := backInv (matOf 256 bitW) (fun _ => True) ((mat256 T).det = 1) T 192) ?_ ?_
    · refine Ok.forDown (backInv (matOf 256 bitW) (fun _ => True) ((mat256 T).det = 1) T)
        (by omega) b4 ?_ (fun _ h => h)
      intro i s hl hi hI
      exact backStep_spec opsW256_3 _ T hl hi (by omega) hI
    intro u3 b3
    refine Ok.bind (P := backInv (matOf 256 bitW) (fun _ => True) ((mat256 T).det = 1) T 128) ?_ ?_
    · refine Ok.forDown (backInv (matOf 256 bitW) (fun _ => True) ((mat256 T).det = 1) T)
        (by omega) b3 ?_ (fun _ h => h)
      intro i s hl hi hI
      exact backStep_spec opsW256_2 _ T hl hi (by omega) hI
    intro u2 b2
    refine Ok.bind (P := backInv (matOf 256 bitW) (fun _ => True) ((mat256 T).det = 1) T 64) ?_ ?_
    · refine Ok.forDown (backInv (matOf 256 bitW) (fun _ => True) ((mat256 T).det = 1) T)
        (by omega) b2 ?_ (fun _ h => h)
      intro i s hl hi hI
      exact backStep_spec opsW256_1 _ T hl hi (by omega) hI
    intro u1 b1
    refine Ok.bind (P := backInv (matOf 256 bitW) (fun _ => True) ((mat256 T).det = 1) T 0) ?_ ?_
    · refine Ok.forDown (backInv (matOf 256 bitW) (fun _ => True) ((mat256 T).det = 1) T)
        (by omega) b1 ?_ (fun _ h => h)
      intro i s hl hi hI
      exact backStep_spec opsW256_0 _ T hl hi (by omega) hI
    intro u0 b0
    obtain ⟨h1, -, h3⟩ := backInv_final b0
    rw [copyM256_eq, C_pure_bind, Ok.pure_iff]
    exact ⟨mat_comm (h3 hd), hW, w1, T, w2, hw1, hdraw, fun _ => ⟨rfl, hw3.2 hv'⟩⟩

theorem genMatpairM256_ok (env : Env) (A0 B0 : M256) (w : World) :
    OkM (genMatpairM256 env A0 B0) w (fun p w' =>
      mat256 p.1 * mat256 p.2 = 1 ∧ GenWorld w w') :=
  (genMatpairM256_draw env A0 B0 w).mono (fun _ _ h => ⟨h.1, h.2.1⟩)

end WB
