#!/usr/bin/env python3
"""Writes lean/Verif/Proof/ElimAll.lean: isinvert, invs and genMatpair for every size."""
import os
OUT = os.path.join(os.path.dirname(__file__), '..', 'lean', 'Verif', 'Proof', 'ElimAll.lean')
W = {4: 8, 8: 8, 16: 16, 32: 32, 64: 64}
L = {128: 2, 256: 4}
RAND64 = '''
theorem randM64_ok (env : Env) (M : M64) (w : World) :
    OkM (randM64 env M) w (fun _ w' => RandWorld w w') := by
  unfold randM64
  rw [OkM.bind_iff]
  refine OkM_reseed w _ ?_
  intro w1 h1
  refine OkM.mono (Q := fun _ w' => OnlyIndex w1 w') ?_ (fun _ _ h => h1.onlyIndex h)
  refine OkM.forUp (fun _ _ w' => OnlyIndex w1 w') (by omega) (OnlyIndex.refl _) ?_
    (fun _ _ h => h)
  intro i M w2 _ hi hw2
  rw [OkM.bind_iff]
  refine OkM_random ?_
  intro r0 w3 hw3
  replace hw2 := hw2.trans hw3
  obtain ⟨M0, hM0⟩ := stWord_ok env M hi 1 (by omega) r0
  rw [OkM.bind_iff, OkM.liftC_iff, hM0, Ok.ok_iff]
  rw [OkM.bind_iff]
  refine OkM_random ?_
  intro r1 w4 hw4
  replace hw2 := hw2.trans hw4
  obtain ⟨M1, hM1⟩ := stWord_ok env M0 hi 0 (by omega) r1
  rw [OkM.liftC_iff, hM1, Ok.ok_iff]
  exact hw2
'''
o = ['''import Verif.Proof.GenSteps
import Verif.Proof.Simple

/-!
# `isinvert`, `invs` and `genMatpair` for every size (helper lemmas)

Written by `tools/gen_elim.py`.
-/
namespace WB
open Matrix

/-- What a call of a pair generator does to the globals besides drawing random numbers. -/
def GenWorld (w w' : World) : Prop :=
  w'.randseed = w.randseed + 2#32 ∧ w'.now = w.now + 2 ∧ w'.clock = w.clock ∧ w'.out = w.out

/-- What a call of a `rand*` function does to the globals besides drawing random numbers. -/
def RandWorld (w w' : World) : Prop :=
  w'.randseed = w.randseed + 1#32 ∧ w'.now = w.now + 1 ∧ w'.clock = w.clock ∧ w'.out = w.out

theorem RandWorld.onlyIndex {w w' w'' : World} (h : RandWorld w w') (h' : OnlyIndex w' w'') :
    RandWorld w w'' := by
  obtain ⟨k, rfl⟩ := h'
  exact h

theorem GenWorld.onlyIndex {w w' w'' : World} (h : GenWorld w w') (h' : OnlyIndex w' w'') :
    GenWorld w w'' := by
  obtain ⟨k, rfl⟩ := h'
  exact h

theorem RandWorld.trans {w w' w'' : World} (h : RandWorld w w') (h' : RandWorld w' w'') :
    GenWorld w w'' := by
  obtain ⟨a, b, c, d⟩ := h
  obtain ⟨a', b', c', d'⟩ := h'
  refine ⟨?_, by omega, c'.trans c, d'.trans d⟩
  rw [a', a, BitVec.add_assoc]; rfl

theorem OkM_reseed (w : World) (Q : Unit → World → Prop)
    (h : ∀ w', RandWorld w w' → Q () w') : OkM reseed w Q := by
  unfold reseed randseedPostInc timeNow InitRandom
  simp only [OkM.bind_iff, OkM.modifyGet_iff, OkM.modify_iff]
  exact h _ ⟨rfl, rfl, rfl, rfl⟩

theorem bitS_ext {n w : Nat} {x y : BitVec w} (hx : ∀ k, n ≤ k → x.getLsbD k = false)
    (hy : ∀ k, n ≤ k → y.getLsbD k = false)
    (h : ∀ c, c < n → bitS n x c = bitS n y c) : x = y := by
  apply BitVec.eq_of_getLsbD_eq
  intro k _
  by_cases hk : k < n
  · have := h (n - 1 - k) (by omega)
    unfold bitS at this
    rwa [show n - 1 - (n - 1 - k) = k by omega] at this
  · rw [hx k (by omega), hy k (by omega)]

theorem Clean4.bits {x : BitVec 8} (h : Clean4 x) (k : Nat) (hk : 4 ≤ k) :
    x.getLsbD k = false := by
  unfold Clean4 at h
  rw [BitVec.getLsbD, Nat.testBit_lt_two_pow]
  calc x.toNat < 2 ^ 4 := h
    _ ≤ 2 ^ k := Nat.pow_le_pow_right (by omega) hk

/-- The last row after a complete elimination. -/
theorem lastRow {n w : Nat} (hn : 0 < n) {A id : Vector (BitVec w) n} (hid : IdOK n id)
    (hT : Tri n (matOf n (bitS n) A)) (hD : Diag n (matOf n (bitS n) A))
    (hA : ∀ k, n ≤ k → (A[n - 1]).getLsbD k = false) :
    A[n - 1] = id[n - 1] := by
  apply bitS_ext (n := n) hA
  · intro k hk
    rw [hid.2 _ (by omega), BitVec.getLsbD_twoPow]
    simp; omega
  · intro c hc
    have h1 : matOf n (bitS n) A ⟨n - 1, by omega⟩ ⟨c, hc⟩ =
        (1 : Mat n) ⟨n - 1, by omega⟩ ⟨c, hc⟩ := by
      by_cases e : c = n - 1
      · subst e; rw [one_apply_eq]; exact hD _ (by simp; omega)
      · rw [one_apply_ne (by intro h; simp at h; omega)]
        exact hT _ _ (by simp; omega) (by simp; omega)
    rw [← mat_id hid] at h1
    exact bitF_inj.1 h1

theorem lastRowW {n l : Nat} (hn : n = 64 * l) (hl : 0 < l)
    {A : Vector (Vector (BitVec 64) l) n}
    (hT : Tri n (matOf n bitW A)) (hD : Diag n (matOf n bitW A)) :
    A[n - 1][l - 1] = idM64[63] := by
  apply BitVec.eq_of_getLsbD_eq
  intro k hk
  have hc : 64 * (l - 1) + (63 - k) < n := by omega
  have hd : (64 * (l - 1) + (63 - k)) / 64 = l - 1 := by omega
  have hm : (64 * (l - 1) + (63 - k)) % 64 = 63 - k := by omega
  have h1 : bitW A[n - 1] (64 * (l - 1) + (63 - k)) = decide (k = 0) := by
    apply bitF_inj.1
    by_cases e : k = 0
    · subst e
      have := hD ⟨n - 1, by omega⟩ (by simp; omega)
      simp only [matOf, Fin.getElem_fin] at this
      rw [show 64 * (l - 1) + (63 - 0) = n - 1 by omega, this]; rfl
    · have := hT ⟨n - 1, by omega⟩ ⟨_, hc⟩ hc (by simp; omega)
      simp only [matOf, Fin.getElem_fin] at this
      rw [this]; simp [e]
  rw [bitW_eq _ _ (by omega)] at h1
  rw [idOK64.2 63 (by omega), BitVec.getLsbD_twoPow]
  simp only [hd, hm] at h1
  rw [show 63 - (63 - k) = k by omega] at h1
  rw [h1]
  simp; tauto

/-- Random rows: the loop of `randM*` for single-word rows. -/
theorem randRows_ok {w n : Nat} (conv : BitVec 32 → BitVec w) (P : BitVec w → Prop)
    (hP : ∀ r, P (conv r)) (M : Vector (BitVec w) n) (w0 : World) :
    OkM (forUp 0 n M fun i M => do
      let r ← cus_random
      liftC (wr M i (conv r))) w0
      (fun M' w' => (∀ i (h : i < n), P M'[i]) ∧ OnlyIndex w0 w') := by
  refine OkM.forUp (fun i M' w' => (∀ r (h : r < n), r < i → P M'[r]) ∧ OnlyIndex w0 w')
    (Nat.zero_le _) ⟨fun r _ h => by omega, OnlyIndex.refl _⟩ ?_ ?_
  · rintro i M' w' - hi ⟨h, hw⟩
    rw [OkM.bind_iff]
    refine OkM_random ?_
    intro r w2 hw2
    rw [OkM.liftC_iff, Ok_wr]
    refine ⟨hi, ?_, hw.trans hw2⟩
    intro r' hr' hlt
    rw [Vector.getElem_set]
    split
    · exact hP r
    · exact h r' hr' (by omega)
  · rintro M' w' ⟨h, hw⟩
    exact ⟨fun i hi => h i hi hi, hw⟩

theorem clean4_mask (r : BitVec 32) : Clean4 ((r &&& 0x0f).setWidth 8) := by
  unfold Clean4
  simp only [BitVec.toNat_setWidth, BitVec.toNat_and]
  have : r.toNat &&& (15 : BitVec 32).toNat < 2 ^ 4 := Nat.and_lt_two_pow _ (by decide)
  omega

theorem mat_comm {n : Nat} {A B : Mat n} (h : A * B = 1) : B * A = 1 := mul_eq_one_comm.1 h

theorem stSub_eq (env : Env) {W w : Nat} (x : BitVec W) (k : Nat) (v : BitVec w)
    (h : (k + 1) * w ≤ W) : ∃ y, env.stSub x k v = .ok y := by
  unfold Env.stSub
  rw [if_pos h]
  exact ⟨_, rfl⟩

theorem stWord_ok (env : Env) {n : Nat} (M : Vector (BitVec 64) n) {i : Nat} (hi : i < n)
    (k : Nat) (hk : k < 2) (r : BitVec 32) :
    ∃ M', (do wr M i (← env.stSub (← rd M i) k r) : C _) = .ok M' := by
  obtain ⟨y, hy⟩ := stSub_eq env M[i] k r (by omega)
  rw [rd_ok _ _ hi, C_pure_bind, hy, C_pure_bind, wr_ok _ _ _ hi]
  exact ⟨_, rfl⟩

theorem stWord2_ok (env : Env) {n l : Nat} (M : Vector (Vector (BitVec 64) l) n) {i : Nat}
    (hi : i < n) {c : Nat} (hc : c < l) (k : Nat) (hk : k < 2) (r : BitVec 32) :
    ∃ M', (do wr2 M i c (← env.stSub (← rd2 M i c) k r) : C _) = .ok M' := by
  obtain ⟨y, hy⟩ := stSub_eq env M[i][c] k r (by omega)
  rw [rd2_ok _ _ _ hi hc, C_pure_bind, hy, C_pure_bind, wr2_ok _ _ _ _ hi hc]
  exact ⟨_, rfl⟩

theorem cleanM4_id : CleanM4 idM4 := by unfold CleanM4 Clean4; decide
''']

for n, w in W.items():
    G = 'CleanM4' if n == 4 else '(fun _ => True)'
    opsok = 'opsS_ok4 idM4 idOK4' if n == 4 else f'opsS_ok idM{n} idOK{n}'
    hclean = '(G : CleanM4 A → _)' 
    compl = 'CleanM4 A → ' if n == 4 else ''
    if n == 4:
        fin = '(fun k hk => ((hG hcl) ⟨3, by omega⟩).bits k hk)'
        intro = 'intro hcl _'
        gid = 'cleanM4_id'
        clean_inv = ' ∧ CleanM4 B'
        clean_gen = ' ∧ CleanM4 p.1 ∧ CleanM4 p.2'
        randpost = 'CleanM4 M ∧ '
    else:
        fin = f'(fun k hk => BitVec.getLsbD_of_ge _ _ hk)'
        intro = 'intro _'
        gid = 'trivial'
        clean_inv = ''
        clean_gen = ''
        randpost = ''
    o.append(f'''
/-! ## Size {n} -/

theorem isinvertM{n}_ok (A : M{n}) : Ok (isinvertM{n} A) (fun r =>
    (r = 0 ∨ r = 1) ∧ (r = 1 → (mat{n} A).det = 1) ∧ ({compl}(mat{n} A).det = 1 → r = 1)) := by
  have hO := {opsok}
  unfold isinvertM{n}
  refine Ok.bind (P := Step.holds (isinvInv (matOf {n} (bitS {n})) {G} A {n})
    (fun r => r = 0 ∧ (mat{n} A).det = 0)) ?_ ?_
  · refine Ok.forRet (isinvInv (matOf {n} (bitS {n})) {G} A) _ (Nat.zero_le _)
      ⟨Tri.zero _, fun c h => absurd h (Nat.not_lt_zero _), rfl, fun h => h⟩ ?_
      (fun _ h => h) (fun _ h => h)
    intro i s _ hi hI
    exact isinvStep_spec hO A (Nat.zero_le _) hi hi hI
  · intro st h
    match st, h with
    | .stop r, h =>
      obtain ⟨hr, hd⟩ : r = 0 ∧ (mat{n} A).det = 0 := h
      simp only [Ok.pure_iff]
      subst hr
      rw [hd]
      exact ⟨Or.inl rfl, fun h => absurd h (by decide), by {'intro _ h; exact absurd h (by decide)' if n==4 else 'intro h; exact absurd h (by decide)'}⟩
    | .next B, h =>
      obtain ⟨hT, hD, hdet, hG⟩ : isinvInv (matOf {n} (bitS {n})) {G} A {n} B := h
      have hone : (mat{n} A).det = 1 := hdet ▸ det_one_of_tri hT (fun i => hD i i.2)
      rw [Ok.bind_iff, Ok_rd]
      refine ⟨by omega, ?_⟩
      rw [Ok.bind_iff, Ok_rd]
      refine ⟨by omega, ?_⟩
      rw [Ok.ite_iff, Ok.pure_iff, Ok.pure_iff]
      constructor
      · intro _; exact ⟨Or.inr rfl, fun _ => hone, by {'intro _ _; rfl' if n==4 else 'intro _; rfl'}⟩
      · intro hne
        refine ⟨Or.inl rfl, fun h => absurd h (by decide), ?_⟩
        {intro}
        exact absurd (by simpa using lastRow (by omega) idOK{n} hT hD {fin}) hne

theorem invsM{n}_ok (A B0 : M{n}) : Ok (invsM{n} A B0) (fun B =>
    (mat{n} B).det = 1{clean_inv} ∧ ((mat{n} A).det = 1 → mat{n} B * mat{n} A = 1)) := by
  have hO := {opsok}
  unfold invsM{n}
  rw [identityM{n}_eq, C_pure_bind]
  refine Ok.bind (P := invsInv (matOf {n} (bitS {n})) {G} A {n}) ?_ ?_
  · refine Ok.forUp (invsInv (matOf {n} (bitS {n})) {G} A) (Nat.zero_le _) ?_ ?_ (fun _ h => h)
    · refine ⟨Tri.zero _, ?_, ?_, {gid}⟩
      · simp only; rw [mat_id idOK{n}, Matrix.one_mul]
      · simp only; rw [mat_id idOK{n}, det_one]
    · intro i s _ hi hI
      exact invsStep_spec hO A (Nat.zero_le _) hi hi hI
  · intro s hs
    refine Ok.bind (P := backInv (matOf {n} (bitS {n})) {G} ((mat{n} A).det = 1) A 0) ?_ ?_
    · refine Ok.forDown (backInv (matOf {n} (bitS {n})) {G} ((mat{n} A).det = 1) A)
        (Nat.zero_le _) (backInv_init hs) ?_ (fun _ h => h)
      intro i s _ hi hI
      exact backStep_spec hO _ A (Nat.zero_le _) hi hi hI
    · intro s hs
      rw [Ok.pure_iff]
      obtain ⟨h1, h2, h3⟩ := backInv_final hs
      exact ⟨h1, {'h2, ' if n==4 else ''}h3⟩

''' + (RAND64 if n == 64 else f'''
theorem randM{n}_ok (M : M{n}) (w : World) :
    OkM (randM{n} M) w (fun {'M' if n==4 else '_'} w' => {randpost}RandWorld w w') := by
  unfold randM{n}
  rw [OkM.bind_iff]
  refine OkM_reseed w _ ?_
  intro w1 h1
  refine (randRows_ok {'(fun r => (r &&& 0x0f).setWidth 8) Clean4 clean4_mask' if n==4 else f'(fun r => r{"" if n==32 else f".setWidth {w}"}) (fun _ => True) (fun _ => trivial)'} M w1).mono ?_
  rintro M' w' ⟨{'hc' if n==4 else '-'}, hw⟩
  exact {'⟨fun i => hc i i.2, h1.onlyIndex hw⟩' if n==4 else 'h1.onlyIndex hw'}

''') + f'''
theorem genMatpairM{n}_ok (env : Env) (A0 B0 : M{n}) (w : World) :
    OkM (genMatpairM{n} env A0 B0) w (fun p w' =>
      mat{n} p.1 * mat{n} p.2 = 1{clean_gen} ∧ GenWorld w w') := by
  have hO := {opsok}
  unfold genMatpairM{n}
  rw [OkM.bind_iff]
  refine OkM_reseed w _ ?_
  intro w1 hw1
  rw [OkM.bind_iff, OkM.liftC_iff, identityM{n}_eq, Ok.ok_iff]
  rw [OkM.bind_iff, OkM.liftC_iff, identityM{n}_eq, Ok.ok_iff]
  rw [OkM.bind_iff]
  refine (randM{n}_ok {'env ' if n==64 else ''}_ w1).mono ?_
  rintro T w2 {'⟨hcl, hw2⟩' if n==4 else 'hw2'}
  rw [OkM.bind_iff, OkM.liftC_iff, copyM{n}_eq, Ok.ok_iff]
  refine OkM.bind (P := fun s w' => genInv (matOf {n} (bitS {n})) {G} T {n} s ∧
    OnlyIndex w2 w') ?_ ?_
  · refine OkM.forUp (fun i s w' => genInv (matOf {n} (bitS {n})) {G} T i s ∧
      OnlyIndex w2 w') (Nat.zero_le _) ?_ ?_ (fun _ _ h => h)
    · refine ⟨⟨Tri.zero _, Nat.zero_le _, ⟨fun k _ h => absurd h (Nat.not_lt_zero _), ?_⟩, ?_,
        {gid}, fun _ c h => absurd h (Nat.not_lt_zero _)⟩, OnlyIndex.refl _⟩
      · simp only [trailProd, Matrix.one_mul]; exact mat_id idOK{n}
      · simp only; rw [mat_id idOK{n}, Matrix.one_mul]
    · rintro i s w' - hi ⟨hI, hw'⟩
      exact genStep_spec hO (by omega) rfl T (Nat.zero_le _) hi hi hI hw'
  · rintro s w3 ⟨hs, hw3⟩
    rw [OkM.liftC_iff]
    have hW : GenWorld w w3 := (hw1.trans hw2).onlyIndex hw3
    rw [Ok.ite_iff]
    constructor
    · intro _
      refine Ok.bind (P := genBackInv (matOf {n} (bitS {n})) {G} 0) ?_ ?_
      · refine Ok.forDown (genBackInv (matOf {n} (bitS {n})) {G}) (Nat.zero_le _)
          (genBackInv_init hs) ?_ (fun _ h => h)
        intro i s _ hi hI
        exact genBack_spec hO (by omega) rfl (Nat.zero_le _) hi hi hI
      · rintro s ⟨hk, hT, hg⟩
        refine Ok.bind (replay_spec hO hT (Nat.le_trans hk (bwdOps_le (Nat.zero_le _)))
          (mat_id idOK{n}) {gid}) ?_
        rintro A' ⟨hmul, hg'⟩
        rw [Ok.pure_iff]
        exact ⟨hmul, {"hg', hg, " if n==4 else ''}hW⟩
    · intro hv
      have hv' : s.invertible = true := by simpa using hv
      obtain ⟨hd, hb⟩ := backInv_of_gen hs hv'
      refine Ok.bind (P := backInv (matOf {n} (bitS {n})) {G} ((mat{n} T).det = 1) T 0) ?_ ?_
      · refine Ok.forDown (backInv (matOf {n} (bitS {n})) {G} ((mat{n} T).det = 1) T)
          (Nat.zero_le _) hb ?_ (fun _ h => h)
        intro i s _ hi hI
        exact backStep_spec hO _ T (Nat.zero_le _) hi hi hI
      · intro s hs
        obtain ⟨h1, h2, h3⟩ := backInv_final hs
        rw [copyM{n}_eq, C_pure_bind, Ok.pure_iff]
        exact ⟨mat_comm (h3 hd), {'hcl, h2, ' if n==4 else ''}hW⟩
''')

for n, l in L.items():
    m = f'(matOf {n} bitW)'
    G = '(fun _ => True)'
    full = '[' + ', '.join(str(k) for k in range(l)) + ']'
    def ks(p): return '[' + ', '.join(str(k) for k in range(p, l)) + ']'
    for p in range(l):
        o.append(f'''
theorem opsW{n}_{p} : OpsOK {n} (opsW (n := {n}) (l := {l}) idM64 {p} {64*p} {ks(p)} {full}) {m}
    {G} {64*p} {64*p+64} :=
  opsW_ok (by norm_num) idM64 idOK64 {p} {64*p} {ks(p)} {full} (by norm_num) (by norm_num)
    (by intro k; simp; omega) (by decide) (by intro k; simp; omega) (by decide)
''')
    # isinvert
    s = f'''
theorem isinvertM{n}_ok (A : M{n}) : Ok (isinvertM{n} A) (fun r =>
    (r = 0 ∨ r = 1) ∧ (r = 1 → (mat{n} A).det = 1) ∧ ((mat{n} A).det = 1 → r = 1)) := by
  have hstop : ∀ r : Int, r = 0 ∧ (mat{n} A).det = 0 →
      (r = 0 ∨ r = 1) ∧ (r = 1 → (mat{n} A).det = 1) ∧ ((mat{n} A).det = 1 → r = 1) := by
    rintro r ⟨rfl, hd⟩
    rw [hd]
    exact ⟨Or.inl rfl, fun h => absurd h (by decide), fun h => absurd h (by decide)⟩
  unfold isinvertM{n}
'''
    ind = '  '
    for p in range(l):
        lo, hi = 64 * p, 64 * p + 64
        init = '⟨Tri.zero _, fun c h => absurd h (Nat.not_lt_zero _), rfl, fun h => h⟩' if p == 0 else f'h{p}'
        s += f'''{ind}refine Ok.bind (P := Step.holds (isinvInv {m} {G} A {hi})
{ind}  (fun r => r = 0 ∧ (mat{n} A).det = 0)) ?_ ?_
{ind}· refine Ok.forRet (isinvInv {m} {G} A) _ (by omega)
{ind}    {init} ?_
{ind}    (fun _ h => h) (fun _ h => h)
{ind}  intro i s hl hi hI
{ind}  exact isinvStep_spec opsW{n}_{p} A hl hi (by omega) hI
{ind}intro st h
{ind}match st, h with
{ind}| .stop r, h => exact (Ok.pure_iff _ _).2 (hstop r h)
{ind}| .next B{p+1}, h{p+1} =>
'''
        ind += '  '
    s += f'''{ind}obtain ⟨hT, hD, hdet, -⟩ : isinvInv {m} {G} A {n} B{l} := h{l}
{ind}have hone : (mat{n} A).det = 1 := hdet ▸ det_one_of_tri hT (fun i => hD i i.2)
{ind}rw [Ok.bind_iff, Ok_rd2]
{ind}refine ⟨by omega, by omega, ?_⟩
{ind}rw [Ok.bind_iff, Ok_rd]
{ind}refine ⟨by omega, ?_⟩
{ind}rw [Ok.ite_iff, Ok.pure_iff, Ok.pure_iff]
{ind}constructor
{ind}· intro _; exact ⟨Or.inr rfl, fun _ => hone, fun _ => rfl⟩
{ind}· intro hne
{ind}  exact absurd (by simpa using lastRowW (l := {l}) (by norm_num) (by omega) hT hD) hne
'''
    o.append(s)
    # invs
    s = f'''
theorem invsM{n}_ok (A B0 : M{n}) : Ok (invsM{n} A B0) (fun B =>
    (mat{n} B).det = 1 ∧ ((mat{n} A).det = 1 → mat{n} B * mat{n} A = 1)) := by
  unfold invsM{n}
  refine Ok.bind (identityM{n}_ok B0) ?_
  intro B1 hB1
  have h0 : invsInv {m} {G} A 0 (A, B1) :=
    ⟨Tri.zero _, by simp only; rw [hB1, Matrix.one_mul], by simp only; rw [hB1, det_one], trivial⟩
'''
    for p in range(l):
        lo, hi = 64 * p, 64 * p + 64
        s += f'''  refine Ok.bind (P := invsInv {m} {G} A {hi}) ?_ ?_
  · refine Ok.forUp (invsInv {m} {G} A) (by omega) h{p} ?_ (fun _ h => h)
    intro i s hl hi hI
    exact invsStep_spec opsW{n}_{p} A hl hi (by omega) hI
  intro s{p+1} h{p+1}
'''
    s += f'''  have b{l} := backInv_init h{l}
'''
    for p in range(l - 1, -1, -1):
        lo, hi = 64 * p, 64 * p + 64
        s += f'''  refine Ok.bind (P := backInv {m} {G} ((mat{n} A).det = 1) A {lo}) ?_ ?_
  · refine Ok.forDown (backInv {m} {G} ((mat{n} A).det = 1) A)
      (by omega) b{p+1} ?_ (fun _ h => h)
    intro i s hl hi hI
    exact backStep_spec opsW{n}_{p} _ A hl hi (by omega) hI
  intro t{p} b{p}
'''
    s += f'''  rw [Ok.pure_iff]
  obtain ⟨h1, -, h3⟩ := backInv_final b0
  exact ⟨h1, h3⟩
'''
    o.append(s)
    # rand
    o.append(f'''
theorem randM{n}_ok (env : Env) (M : M{n}) (w : World) :
    OkM (randM{n} env M) w (fun _ w' => RandWorld w w') := by
  unfold randM{n}
  rw [OkM.bind_iff]
  refine OkM_reseed w _ ?_
  intro w1 h1
  refine OkM.mono (Q := fun _ w' => OnlyIndex w1 w') ?_ (fun _ _ h => h1.onlyIndex h)
  refine OkM.forUp (fun _ _ w' => OnlyIndex w1 w') (by omega) (OnlyIndex.refl _) ?_
    (fun _ _ h => h)
  intro i M w2 _ hi hw2
''' + ''.join(f'''  rw [OkM.bind_iff]
  refine OkM_random ?_
  intro r{k} w{k+3} hw{k+3}
  replace hw2 := hw2.trans hw{k+3}
  obtain ⟨M{k}, hM{k}⟩ := stWord2_ok env {'M' if k==0 else f'M{k-1}'} hi (c := {k//2}) (by omega) {1-k%2} (by omega) r{k}
  rw [{'OkM.bind_iff, ' if k < 2*l-1 else ''}OkM.liftC_iff, hM{k}, Ok.ok_iff]
''' for k in range(2 * l)) + '''  exact hw2
''')
    # gen
    s = f'''
theorem genMatpairM{n}_ok (env : Env) (A0 B0 : M{n}) (w : World) :
    OkM (genMatpairM{n} env A0 B0) w (fun p w' =>
      mat{n} p.1 * mat{n} p.2 = 1 ∧ GenWorld w w') := by
  unfold genMatpairM{n}
  rw [OkM.bind_iff]
  refine OkM_reseed w _ ?_
  intro w1 hw1
  rw [OkM.bind_iff, OkM.liftC_iff]
  refine (identityM{n}_ok A0).mono ?_
  intro A1 hA1
  rw [OkM.bind_iff, OkM.liftC_iff]
  refine (identityM{n}_ok B0).mono ?_
  intro B1 hB1
  rw [OkM.bind_iff]
  refine (randM{n}_ok env _ w1).mono ?_
  intro T w2 hw2
  rw [OkM.bind_iff, OkM.liftC_iff, copyM{n}_eq, Ok.ok_iff]
  have h0 : genInv {m} {G} T 0 (GenSt.mk (t := {n*n}) T B1 (env.junkArr2 8 3 {n*n}) 0 true) ∧
      OnlyIndex w2 w2 := by
    refine ⟨⟨Tri.zero _, Nat.zero_le _, ⟨fun k _ h => absurd h (Nat.not_lt_zero _), ?_⟩, ?_,
      trivial, fun _ c h => absurd h (Nat.not_lt_zero _)⟩, OnlyIndex.refl _⟩
    · simp only [trailProd, Matrix.one_mul]; exact hB1
    · simp only; rw [hB1, Matrix.one_mul]
'''
    for p in range(l):
        lo, hi = 64 * p, 64 * p + 64
        conv = 'rw [genStepNG_fold'
        step = f'exact genStep_spec opsW{n}_{p} (by omega) (by norm_num) T hl hi (by omega) hI hw\''
        if p < l - 1:
            step = (f'exact (genStepNG_eq (n := {n}) (O := opsW (n := {n}) (l := {l}) idM64 {p} {64*p} {ks(p)} {full}) (by omega) s).symm ▸\n'
                    f'      genStep_spec opsW{n}_{p} (by omega) (by norm_num) T hl hi (by omega) hI hw\'')
        s += f'''  refine OkM.bind (P := fun s w' => genInv {m} {G} T {hi} s ∧ OnlyIndex w2 w') ?_ ?_
  · refine OkM.forUp (fun i s w' => genInv {m} {G} T i s ∧ OnlyIndex w2 w') (by omega) h{p} ?_
      (fun _ _ h => h)
    rintro i s w' hl hi ⟨hI, hw'⟩
'''
        if p < l - 1:
            s += f'''    have key := genStep_spec opsW{n}_{p} (by omega) (by norm_num) T hl hi (by omega) hI hw'
    rw [← genStepNG_eq (n := {n}) (by omega)] at key
    exact key
'''
        else:
            s += f'''    exact genStep_spec opsW{n}_{p} (by omega) (by norm_num) T hl hi (by omega) hI hw'
'''
        s += f'''  intro s{p+1} v{p+1} h{p+1}
'''
    s += f'''  obtain ⟨hs, hw3⟩ := h{l}
  rw [OkM.liftC_iff]
  have hW : GenWorld w v{l} := (hw1.trans hw2).onlyIndex hw3
  rw [Ok.ite_iff]
  constructor
  · intro _
    have b{l} := genBackInv_init hs
'''
    for p in range(l - 1, -1, -1):
        lo, hi = 64 * p, 64 * p + 64
        s += f'''    refine Ok.bind (P := genBackInv {m} {G} {lo}) ?_ ?_
    · refine Ok.forDown (genBackInv {m} {G}) (by omega) b{p+1} ?_ (fun _ h => h)
      intro i s hl hi hI
      exact genBack_spec opsW{n}_{p} (by omega) (by norm_num) hl hi (by omega) hI
    intro u{p} b{p}
'''
    s += f'''    obtain ⟨hk, hT, hg⟩ := b0
    refine Ok.bind (replay_spec opsW{n}_0 hT (Nat.le_trans hk
      (Nat.le_trans (bwdOps_le (Nat.zero_le _)) (by norm_num))) hA1 trivial) ?_
    rintro A' ⟨hmul, -⟩
    rw [Ok.pure_iff]
    exact ⟨hmul, hW⟩
  · intro hv
    have hv' : s{l}.invertible = true := by simpa using hv
    obtain ⟨hd, b{l}⟩ := backInv_of_gen hs hv'
'''
    for p in range(l - 1, -1, -1):
        lo, hi = 64 * p, 64 * p + 64
        s += f'''    refine Ok.bind (P := backInv {m} {G} ((mat{n} T).det = 1) T {lo}) ?_ ?_
    · refine Ok.forDown (backInv {m} {G} ((mat{n} T).det = 1) T)
        (by omega) b{p+1} ?_ (fun _ h => h)
      intro i s hl hi hI
      exact backStep_spec opsW{n}_{p} _ T hl hi (by omega) hI
    intro u{p} b{p}
'''
    s += f'''    obtain ⟨h1, -, h3⟩ := backInv_final b0
    rw [copyM{n}_eq, C_pure_bind, Ok.pure_iff]
    exact ⟨mat_comm (h3 hd), hW⟩
'''
    o.append(s)
o.append('\nend WB\n')
open(OUT, 'w').write(''.join(o))
