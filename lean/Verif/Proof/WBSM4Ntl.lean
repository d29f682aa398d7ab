import Verif.Model.WBSM4Ntl
import Verif.Proof.NtlGen
import Verif.Proof.WBSM4M4ri

/-!
# The NTL based SM4 demo computes SM4 (helper lemmas)
-/
namespace WB.ntl

variable {α β σ : Type} {H : Prop}

/-- `x` returns something that satisfies `Q` or is still drawing random bits; if `H` holds, there are random bits with which
it returns. -/
structure Gen (H : Prop) (x : NM α) (Q : α → Prop) : Prop where
  run : ∀ s, Run x s Q
  can : H → Can x Q

namespace Gen

theorem pure {a : α} {Q : α → Prop} (h : Q a) : Gen H (Pure.pure a) Q := ⟨fun _ => Run.pure h, fun _ => Can.pure h⟩

theorem lift {x : C α} {Q : α → Prop} (h : Ok x Q) : Gen H (liftC x) Q := ⟨fun _ => Run.lift h, fun _ => Can.lift h⟩

theorem bind {x : NM α} {f : α → NM β} {P : α → Prop} {Q : β → Prop} (h : Gen H x P) (hf : ∀ a, P a → Gen H (f a) Q) :
    Gen H (x >>= f) Q :=
  ⟨fun s => (h.run s).bind fun a s' ha => (hf a ha).run s', fun hH => (h.can hH).bind fun a ha => (hf a ha).can hH⟩

theorem mono {x : NM α} {Q Q' : α → Prop} (h : Gen H x Q) (hq : ∀ a, Q a → Q' a) : Gen H x Q' :=
  ⟨fun s => (h.run s).mono hq, fun hH => (h.can hH).mono hq⟩

theorem step {x : C α} {f : α → NM β} {a : α} {Q : β → Prop} (e : x = .ok a) (h : Gen H (f a) Q) :
    Gen H (liftC x >>= f) Q :=
  bind (lift (Q := fun b => b = a) (Ok.eq.2 e)) (by rintro _ rfl; exact h)

theorem forUp {hi : Nat} {t : σ} {f : Nat → σ → NM σ} {Q : σ → Prop} (P : Nat → σ → Prop) (h0 : P 0 t)
    (hs : ∀ i t, i < hi → P i t → Gen H (f i t) (P (i + 1))) (hq : ∀ t, P hi t → Q t) : Gen H (WB.forUp 0 hi t f) Q :=
  ⟨fun _ => Run.forUp P h0 (fun i t s h1 h2 => (hs i t h1 h2).run s) hq,
    fun hH => (Can.forUp P h0 fun i t h1 h2 => (hs i t h1 h2).can hH).mono hq⟩

end Gen

/-- The affine function as an object of NTL. -/
def emb32 (f : Aff32) : Affine := ⟨⟨32, 32, mat32 f.Mat⟩, numVec 32 f.Vec⟩

/-- The affine function as an object of NTL. -/
def emb8 (f : Aff8) : Affine := ⟨⟨8, 8, mat8 f.Mat⟩, numVec 8 f.Vec⟩

theorem exists32 (A : Matrix (Fin 32) (Fin 32) (ZMod 2)) (v : Fin 32 → ZMod 2) :
    ∃ f : Aff32, mat32 f.Mat = A ∧ vec32 f.Vec = v := ⟨⟨_, unvec v⟩, m4ri.mat_ofFn A, vec_unvec v⟩

theorem exists8 (A : Matrix (Fin 8) (Fin 8) (ZMod 2)) (v : Fin 8 → ZMod 2) :
    ∃ f : Aff8, mat8 f.Mat = A ∧ vec8 f.Vec = v := ⟨⟨_, unvec v⟩, m4ri.mat_ofFn A, vec_unvec v⟩

theorem emb32_of {f : Aff32} {A : Matrix (Fin 32) (Fin 32) (ZMod 2)} {v : Fin 32 → ZMod 2} (hA : mat32 f.Mat = A)
    (hv : vec32 f.Vec = v) : (⟨⟨32, 32, A⟩, ⟨32, v⟩⟩ : Affine) = emb32 f := by
  unfold emb32 numVec
  rw [hA, ← hv]

theorem emb8_of {f : Aff8} {A : Matrix (Fin 8) (Fin 8) (ZMod 2)} {v : Fin 8 → ZMod 2} (hA : mat8 f.Mat = A)
    (hv : vec8 f.Vec = v) : (⟨⟨8, 8, A⟩, ⟨8, v⟩⟩ : Affine) = emb8 f := by
  unfold emb8 numVec
  rw [hA, ← hv]

theorem genAffine_gen (stale : Nat → Nat → ZMod 2) (fuel : Nat) (x y : MatGF2) {n : Nat} (hn : 3 ≤ n) :
    Gen (1 ≤ fuel) (genRandomAffineMatrix stale fuel x y n) fun r => ∃ (A : Matrix (Fin n) (Fin n) (ZMod 2)) (v : Fin n → ZMod 2),
      NoUnitRow A ∧ IsUnit A ∧ r = (⟨n, n, A⟩, ⟨n, n, A⁻¹⟩, ⟨n, v⟩) :=
  ⟨fun s => genAffine_run stale fuel x y n s, fun hf => (genAffine_can stale hf x y (chain_noUnitRow hn) (chain_unit hn) 0).mono
    (by rintro _ rfl; exact ⟨_, _, chain_noUnitRow hn, chain_unit hn, rfl⟩)⟩

theorem apply_emb32 (f : Aff32) (x : BitVec 32) : applyAffineToU32 64 (emb32 f) x = .ok (ap32 f x) := by
  unfold emb32 numVec
  rw [applyAffine32_of (by decide)]
  have : (mat32 f.Mat).mulVec (numBits 32 x) + vec32 f.Vec = vec32 (lin f.Mat x ^^^ f.Vec) := by
    rw [show vec32 (lin f.Mat x ^^^ f.Vec) = vec32 (lin f.Mat x) + vec32 f.Vec from vec_add _ _,
      show vec32 (lin f.Mat x) = (mat32 f.Mat).mulVec (vec32 x) from vec_lin _ _]
  have e := get32_num (lin f.Mat x ^^^ f.Vec)
  unfold numVec at e
  rw [this, e]
  rfl

namespace sm4
open WB.sm4 WB.wbsm4 SM4

attribute [local irreducible] S L tau lin ap32 ap8

variable (stale : Nat → Nat → ZMod 2) (fuel : Nat)

theorem randomAffine32 (x xi : Affine) : Gen (1 ≤ fuel) (randomAffine stale fuel x xi 32) fun r =>
    ∃ f g, Pair32 f g ∧ r = (emb32 f, emb32 g) := by
  unfold randomAffine
  refine Gen.bind (genAffine_gen stale fuel _ _ (by decide)) ?_
  rintro _ ⟨A, v, -, hu, rfl⟩
  simp only
  refine Gen.step (mulVec_run _ _) ?_
  obtain ⟨f, hf, hfv⟩ := exists32 A v
  obtain ⟨g, hg, hgv⟩ := exists32 A⁻¹ (A⁻¹.mulVec v)
  refine Gen.pure ⟨f, g, pair32_of ?_ ?_, ?_⟩
  · rw [hf, hg]; exact (inv_both hu).1
  · rw [hg, hfv]; exact hgv
  · rw [emb32_of hf hfv, emb32_of hg hgv]

theorem randomAffine8 (x xi : Affine) : Gen (1 ≤ fuel) (randomAffine stale fuel x xi 8) fun r =>
    ∃ f g, Pair8 f g ∧ IsUnit (mat8 f.Mat) ∧ r = (emb8 f, emb8 g) := by
  unfold randomAffine
  refine Gen.bind (genAffine_gen stale fuel _ _ (by decide)) ?_
  rintro _ ⟨A, v, -, hu, rfl⟩
  simp only
  refine Gen.step (mulVec_run _ _) ?_
  obtain ⟨f, hf, hfv⟩ := exists8 A v
  obtain ⟨g, hg, hgv⟩ := exists8 A⁻¹ (A⁻¹.mulVec v)
  refine Gen.pure ⟨f, g, pair8_of ?_ ?_, ?_, ?_⟩
  · rw [hf, hg]; exact (inv_both hu).1
  · rw [hg, hfv]; exact hgv
  · rw [hf]; exact hu
  · rw [emb8_of hf hfv, emb8_of hg hgv]

theorem concatE_run {e : Vector (Vector Affine 2) 5} {f : Nat → Aff8} (he : ∀ d, d < 4 → (e[d]!)[0]! = emb8 (f d))
    (v : VecGF2) : concatE e v = .ok ⟨32, concatV (k := 4) (a := 8)
      ![vec8 (f 0).Vec, vec8 (f 1).Vec, vec8 (f 2).Vec, vec8 (f 3).Vec]⟩ := by
  unfold concatE
  obtain ⟨u, eu⟩ := SetLength_eq v 32
  rw [eu]
  refine vecUp u _ fun k hk u => ?_
  rw [rd2_get e (show k / 8 < 5 by omega) (show 0 < 2 by omega), C_pure_bind, he (k / 8) (by omega)]
  rw [show (emb8 (f (k / 8))).vectorTranslation = ⟨8, vec8 (f (k / 8)).Vec⟩ from rfl,
    ok_bind (vget_run (show k % 8 < 8 by omega)), vput_run hk]
  congr 3
  show _ = (![vec8 (f 0).Vec, vec8 (f 1).Vec, vec8 (f 2).Vec, vec8 (f 3).Vec] : Fin 4 → Fin 8 → ZMod 2)
    (Fin.divNat (m := 4) (n := 8) ⟨k, hk⟩) (Fin.modNat (m := 4) (n := 8) ⟨k, hk⟩)
  have e1 : ∀ (q : Nat) (hq : q < 4), k / 8 = q → (Fin.divNat (m := 4) (n := 8) ⟨k, hk⟩ : Fin 4) = ⟨q, hq⟩ :=
    fun q hq h => Fin.ext h
  obtain h | h | h | h : k / 8 = 0 ∨ k / 8 = 1 ∨ k / 8 = 2 ∨ k / 8 = 3 := by omega
  · rw [e1 0 (by decide) h, h]; rfl
  · rw [e1 1 (by decide) h, h]; rfl
  · rw [e1 2 (by decide) h, h]; rfl
  · rw [e1 3 (by decide) h, h]; rfl

theorem combineE_run {e : Vector (Vector Affine 2) 5} {f : Nat → Aff8}
    (he : ∀ d, d < 4 → (e[d]!)[0]! = emb8 (f d) ∧ IsUnit (mat8 (f d).Mat)) :
    ∃ (e0 : Affine) (F : Aff32), combineE stale e = .ok (e0, emb32 F) ∧
      ∀ y d, d < 4 → ap8 (f d) (byte (ap32 F y) d) = byte y d := by
  unfold combineE
  have hl : ∀ d, d < 4 → (e[d]!)[0]!.linearMap = ⟨8, 8, mat8 (f d).Mat⟩ := fun d hd => by rw [(he d hd).1]; rfl
  rw [rd2_get e (show 0 < 5 by omega) (show 0 < 2 by omega), C_pure_bind,
    rd2_get e (show 1 < 5 by omega) (show 0 < 2 by omega), C_pure_bind, hl 0 (by omega), hl 1 (by omega),
    ok_bind (combineDiag_run stale _ _ _),
    rd2_get e (show 2 < 5 by omega) (show 0 < 2 by omega), C_pure_bind, hl 2 (by omega),
    ok_bind (combineDiag_run stale _ _ _),
    rd2_get e (show 4 < 5 by omega) (show 0 < 2 by omega), C_pure_bind,
    rd2_get e (show 3 < 5 by omega) (show 0 < 2 by omega), C_pure_bind, hl 3 (by omega),
    ok_bind (combineDiag_run stale _ _ _)]
  have hu := m4ri.diagMat_unit (m4ri.diagMat_unit (m4ri.diagMat_unit (he 0 (by omega)).2 (he 1 (by omega)).2)
    (he 2 (by omega)).2) (he 3 (by omega)).2
  have hbd := m4ri.blockDiag_diagMat (mat8 (f 0).Mat) (mat8 (f 1).Mat) (mat8 (f 2).Mat) (mat8 (f 3).Mat)
  change IsUnit (m4ri.diagMat (m4ri.diagMat (m4ri.diagMat (mat8 (f 0).Mat) (mat8 (f 1).Mat)) (mat8 (f 2).Mat))
    (mat8 (f 3).Mat) : Matrix (Fin 32) (Fin 32) (ZMod 2)) at hu
  have hm : ∀ X : Matrix (Fin 32) (Fin 32) (ZMod 2), X = m4ri.diagMat (m4ri.diagMat (m4ri.diagMat (mat8 (f 0).Mat)
    (mat8 (f 1).Mat)) (mat8 (f 2).Mat)) (mat8 (f 3).Mat) → (⟨8 + 8 + 8 + 8, 8 + 8 + 8 + 8, m4ri.diagMat (m4ri.diagMat
    (m4ri.diagMat (mat8 (f 0).Mat) (mat8 (f 1).Mat)) (mat8 (f 2).Mat)) (mat8 (f 3).Mat)⟩ : MatGF2) = ⟨32, 32, X⟩ := by
    rintro _ rfl; rfl
  rw [hm _ hbd.symm]
  rw [hbd] at hu
  generalize hB : (blockDiag (k := 4) (a := 8) ![mat8 (f 0).Mat, mat8 (f 1).Mat, mat8 (f 2).Mat, mat8 (f 3).Mat] :
    Matrix (Fin 32) (Fin 32) (ZMod 2)) = B at hu ⊢
  rw [ok_bind (inv_run hu), C_pure_bind,
    ok_bind (concatE_run (fun d hd => (he d hd).1) _)]
  generalize hV : concatV (k := 4) (a := 8) ![vec8 (f 0).Vec, vec8 (f 1).Vec, vec8 (f 2).Vec, vec8 (f 3).Vec] = V
  change Fin 32 → ZMod 2 at V
  rw [ok_bind (mulVec_run B⁻¹ V)]
  obtain ⟨F0, hF0, hF0v⟩ := exists32 B V
  obtain ⟨F, hF, hFv⟩ := exists32 B⁻¹ (B⁻¹.mulVec V)
  refine ⟨_, F, by rw [emb32_of hF hFv]; rfl, ?_⟩
  have hp : Pair32 F0 F := by
    refine pair32_of ?_ ?_
    · rw [hF0, hF]; exact (inv_both hu).1
    · rw [hF, hF0v]; exact hFv
  have hc := com_of (f0 := f 0) (f1 := f 1) (f2 := f 2) (f3 := f 3) (F := F0) (by rw [hF0, hB]) (by rw [hF0v, hV])
  intro y d hd
  have h2 := (hp y).2
  obtain ⟨c0, c1, c2, c3⟩ := hc (ap32 F y)
  rw [h2] at c0 c1 c2 c3
  obtain rfl | rfl | rfl | rfl : d = 0 ∨ d = 1 ∨ d = 2 ∨ d = 3 := by omega
  · exact c0.symm
  · exact c1.symm
  · exact c2.symm
  · exact c3.symm

/-- The transforms of round `i` are the encodings `R`. -/
structure RowRel (g : Globals) (i : Nat) (R : m4ri.sm4.Row) : Prop where
  P : ∀ k, k < 2 → (g.P[i]!)[k]! = emb32 (R.p k)
  E : ∀ d, d < 4 → ((g.E[i]!)[d]!)[0]! = emb8 (R.e d 0)
  EC : ((g.E[i]!)[4]!)[1]! = emb32 R.ec
  Q : ∀ k, k < 2 → (g.Q[i]!)[k]! = emb32 (R.q k)
  ok : wbsm4.RowOk R.p R.e R.ec R.q

/-- Row `x` of both is the same. -/
structure SameRow (g g' : Globals) (x : Nat) : Prop where
  P : ∀ k, k < 2 → (g'.P[x]!)[k]! = (g.P[x]!)[k]!
  E : ∀ d k, d < 5 → k < 2 → ((g'.E[x]!)[d]!)[k]! = ((g.E[x]!)[d]!)[k]!
  Q : ∀ k, k < 2 → (g'.Q[x]!)[k]! = (g.Q[x]!)[k]!

theorem RowRel.congr {g g' : Globals} {i : Nat} {R : m4ri.sm4.Row} (hr : RowRel g i R) (h : SameRow g g' i) :
    RowRel g' i R where
  P k hk := by rw [h.P k hk]; exact hr.P k hk
  E d hd := by rw [h.E d 0 (by omega) (by omega)]; exact hr.E d hd
  EC := by rw [h.E 4 1 (by omega) (by omega)]; exact hr.EC
  Q k hk := by rw [h.Q k hk]; exact hr.Q k hk
  ok := hr.ok

theorem affineRow_gen (g : Globals) {i : Nat} (hi : i < 36) :
    Gen (1 ≤ fuel) (affineRow stale fuel i g) fun g' => (∃ R, RowRel g' i R) ∧
      (∀ x, x < 36 → x ≠ i → SameRow g g' x) ∧ g'.skbox_enc = g.skbox_enc := by
  rw [affineRow]
  refine Gen.step (rd2_get g.P hi (show 0 < 2 by omega)) ?_
  refine Gen.step (rd2_get g.P hi (show 1 < 2 by omega)) ?_
  refine Gen.bind (randomAffine32 stale fuel _ _) ?_
  rintro _ ⟨f0, f1, hp, rfl⟩
  simp only
  obtain ⟨P1, hP1, gP1⟩ := wr2_get g.P (i := i) (k := 0) hi (by omega) (emb32 f0)
  obtain ⟨P2, hP2, gP2⟩ := wr2_get P1 (i := i) (k := 1) hi (by omega) (emb32 f1)
  refine Gen.step hP1 ?_
  refine Gen.step hP2 ?_
  refine Gen.bind (P := fun E => (∀ x d k, x < 36 → d < 5 → k < 2 → x ≠ i →
      ((E[x]!)[d]!)[k]! = ((g.E[x]!)[d]!)[k]!) ∧ ∃ e : Nat → Nat → Aff8, ∀ d, d < 4 → Pair8 (e d 0) (e d 1) ∧
        ((E[i]!)[d]!)[0]! = emb8 (e d 0) ∧ IsUnit (mat8 (e d 0).Mat)) ?_ ?_
  · refine Gen.forUp (fun j E => (∀ x d k, x < 36 → d < 5 → k < 2 → x ≠ i →
      ((E[x]!)[d]!)[k]! = ((g.E[x]!)[d]!)[k]!) ∧ ∃ e : Nat → Nat → Aff8, ∀ d, d < j → Pair8 (e d 0) (e d 1) ∧
        ((E[i]!)[d]!)[0]! = emb8 (e d 0) ∧ IsUnit (mat8 (e d 0).Mat))
      ⟨fun _ _ _ _ _ _ _ => rfl, fun _ _ => default, fun d hd => by omega⟩ ?_ (fun E h => h)
    rintro j E hj ⟨hE, e, he⟩
    refine Gen.step (rd3_get E hi (show j < 5 by omega) (show 0 < 2 by omega)) ?_
    refine Gen.step (rd3_get E hi (show j < 5 by omega) (show 1 < 2 by omega)) ?_
    refine Gen.bind (randomAffine8 stale fuel _ _) ?_
    rintro _ ⟨a0, a1, ha, hu, rfl⟩
    simp only
    obtain ⟨E1, hE1, gE1⟩ := wr3_get E (i := i) (k := j) (t := 0) hi (by omega) (by omega) (emb8 a0)
    obtain ⟨E2, hE2, gE2⟩ := wr3_get E1 (i := i) (k := j) (t := 1) hi (by omega) (by omega) (emb8 a1)
    refine Gen.step hE1 ?_
    refine Gen.lift ⟨E2, hE2, ?_, fun d k => if d = j then (if k = 0 then a0 else a1) else e d k, ?_⟩
    · intro x d k hx hd hk hne
      rw [gE2 x d k hx hd hk, if_neg (by omega), gE1 x d k hx hd hk, if_neg (by omega)]
      exact hE x d k hx hd hk hne
    · intro d hd
      rw [gE2 i d 0 hi (by omega) (by omega), if_neg (by omega), gE1 i d 0 hi (by omega) (by omega)]
      by_cases c : d = j
      · rw [if_pos (show i = i ∧ d = j ∧ 0 = 0 from ⟨rfl, c, rfl⟩)]
        simp only [if_pos c]
        exact ⟨ha, rfl, hu⟩
      · rw [if_neg (show ¬ (i = i ∧ d = j ∧ 0 = 0) from fun h => c h.2.1)]
        simp only [if_neg c]
        exact he d (by omega)
  rintro E ⟨hE, e, he⟩
  obtain ⟨e0, F, hF, hFe⟩ := combineE_run stale (e := E[i]!) (f := fun d => e d 0) (fun d hd => (he d hd).2)
  refine Gen.step (a := (e0, emb32 F)) (by rw [rd_get E hi, C_pure_bind]; exact hF) ?_
  simp only
  obtain ⟨E1, hE1, gE1⟩ := wr3_get E (i := i) (k := 4) (t := 0) hi (by omega) (by omega) e0
  obtain ⟨E2, hE2, gE2⟩ := wr3_get E1 (i := i) (k := 4) (t := 1) hi (by omega) (by omega) (emb32 F)
  refine Gen.step hE1 ?_
  refine Gen.step hE2 ?_
  refine Gen.step (rd2_get g.Q hi (show 0 < 2 by omega)) ?_
  refine Gen.step (rd2_get g.Q hi (show 1 < 2 by omega)) ?_
  refine Gen.bind (randomAffine32 stale fuel _ _) ?_
  rintro _ ⟨b0, b1, hq, rfl⟩
  simp only
  obtain ⟨Q1, hQ1, gQ1⟩ := wr2_get g.Q (i := i) (k := 0) hi (by omega) (emb32 b0)
  obtain ⟨Q2, hQ2, gQ2⟩ := wr2_get Q1 (i := i) (k := 1) hi (by omega) (emb32 b1)
  refine Gen.step hQ1 ?_
  refine Gen.step hQ2 ?_
  refine Gen.pure ⟨⟨⟨fun k => if k = 0 then f0 else f1, e, F, fun k => if k = 0 then b0 else b1⟩, ?_⟩, ?_, rfl⟩
  · constructor
    · intro k hk
      show (P2[i]!)[k]! = _
      rw [gP2 i k hi hk, gP1 i k hi hk]
      obtain rfl | rfl : k = 0 ∨ k = 1 := by omega
      · rw [if_neg (by omega), if_pos (by omega)]; rfl
      · rw [if_pos (by omega)]; rfl
    · intro d hd
      show ((E2[i]!)[d]!)[0]! = _
      rw [gE2 i d 0 hi (by omega) (by omega), if_neg (by omega), gE1 i d 0 hi (by omega) (by omega), if_neg (by omega)]
      exact (he d hd).2.1
    · show ((E2[i]!)[4]!)[1]! = _
      rw [gE2 i 4 1 hi (by omega) (by omega), if_pos ⟨rfl, rfl, rfl⟩]
    · intro k hk
      show (Q2[i]!)[k]! = _
      rw [gQ2 i k hi hk, gQ1 i k hi hk]
      obtain rfl | rfl : k = 0 ∨ k = 1 := by omega
      · rw [if_neg (by omega), if_pos (by omega)]; rfl
      · rw [if_pos (by omega)]; rfl
    · refine ⟨hp, fun d hd => (he d hd).1, ?_, hq⟩
      intro y d hd
      have h1 := ((he d hd).1 (byte (ap32 F y) d)).1
      have h2 := hFe y d hd
      rw [h2] at h1
      exact h1.symm
  · intro x hx hne
    constructor
    · intro k hk
      show (P2[x]!)[k]! = _
      rw [gP2 x k hx hk, if_neg (by omega), gP1 x k hx hk, if_neg (by omega)]
    · intro d k hd hk
      show ((E2[x]!)[d]!)[k]! = _
      rw [gE2 x d k hx hd hk, if_neg (by omega), gE1 x d k hx hd hk, if_neg (by omega)]
      exact hE x d k hx hd hk hne
    · intro k hk
      show (Q2[x]!)[k]! = _
      rw [gQ2 x k hx hk, if_neg (by omega), gQ1 x k hx hk, if_neg (by omega)]

theorem gen_affine_gen (g : Globals) :
    Gen (1 ≤ fuel) (sm4_wb_gen_affine stale fuel g) fun g' =>
      (∃ R : Nat → m4ri.sm4.Row, ∀ i, i < 36 → RowRel g' i (R i)) ∧ g'.skbox_enc = g.skbox_enc := by
  rw [sm4_wb_gen_affine]
  refine Gen.forUp (fun j g' =>
    (∃ R : Nat → m4ri.sm4.Row, ∀ i, i < j → RowRel g' i (R i)) ∧ g'.skbox_enc = g.skbox_enc)
    ⟨⟨fun _ => ⟨fun _ => default, fun _ _ => default, default, fun _ => default⟩, fun _ h => by omega⟩, rfl⟩ ?_
    (fun g' h => h)
  rintro i g1 hi ⟨⟨R, hR⟩, hs⟩
  refine (affineRow_gen stale fuel g1 hi).mono ?_
  rintro g2 ⟨⟨R', hR'⟩, hsame, hs2⟩
  refine ⟨⟨fun x => if x = i then R' else R x, ?_⟩, hs2.trans hs⟩
  intro x hx
  show RowRel g2 x (if x = i then R' else R x)
  by_cases c : x = i
  · subst c; rw [if_pos rfl]; exact hR'
  · rw [if_neg c]
    exact (hR x (by omega)).congr (hsame x (by omega) c)

/-! ## The tables -/

theorem sliceQL_run (A : Matrix (Fin 32) (Fin 32) (ZMod 2)) {d : Nat} (hd : d < 4) :
    sliceQL stale ⟨32, 32, A⟩ d = .ok ⟨32, 8, m4ri.sm4.slice d hd A⟩ := by
  unfold sliceQL
  obtain ⟨D, e⟩ := SetDims_eq stale default 32 8
  rw [e]
  refine rowsUp D _ fun k hk D => ?_
  rw [rowUp D k 0 8 (fun j => if h : j < 8 then m4ri.sm4.slice d hd A ⟨k, hk⟩ ⟨j, h⟩ else 0)]
  · rw [rect_setRow]
    congr 4
    funext j
    rw [dif_pos j.2]
  · intro j hj B
    rw [ok_bind (get_run hk (show d * 8 + j < 32 by omega)), Nat.zero_add, put_run hk hj, dif_pos hj]
    rfl

theorem slice_vec (d : Nat) (hd : d < 4) (A : Matrix (Fin 32) (Fin 32) (ZMod 2)) (b : BitVec 8) :
    (m4ri.sm4.slice d hd A).mulVec (vec8 b) = A.mulVec (vec32 (placed d b)) := by
  have := m4ri.sm4.slice_mul d hd A b
  exact funext fun i => congrFun (congrFun this i) 0

theorem tableEntry_run (f : Aff8) {d : Nat} (hd : d < 4) (Q : M32) (sk : Vector (BitVec 8) 256) (k : Nat) :
    tableEntry (emb8 f) sk ⟨32, 8, m4ri.sm4.slice d hd (mat32 Q * mat32 csl)⟩ k =
      .ok (lin Q (L (placed d sk[(ap8 f (BitVec.ofNat 8 k)).toNat]!))) := by
  unfold tableEntry
  have e0 : numVec 8 (BitVec.ofNat 64 k) = numVec 8 (BitVec.ofNat 8 k) := by
    rw [← numVec_setWidth (BitVec.ofNat 64 k) (Nat.le_refl 8)]
    congr 1
    apply BitVec.eq_of_toNat_eq
    simp only [BitVec.toNat_setWidth, BitVec.toNat_ofNat]
    omega
  rw [ok_bind ((initVec_num _ _ (by decide)).trans (congrArg Except.ok e0))]
  rw [show (emb8 f).linearMap = ⟨8, 8, mat8 f.Mat⟩ from rfl, show (emb8 f).vectorTranslation = numVec 8 f.Vec from rfl,
    ok_bind (mulVec_num _ _), ok_bind (addVec_num _ _), ok_bind (getDigital_num _ (by decide))]
  have ey : ((lin f.Mat (BitVec.ofNat 8 k) ^^^ f.Vec).setWidth 32).toNat = (ap8 f (BitVec.ofNat 8 k)).toNat := by
    unfold ap8
    have := (lin f.Mat (BitVec.ofNat 8 k) ^^^ f.Vec).isLt
    rw [BitVec.toNat_setWidth, Nat.mod_eq_of_lt (by omega)]
  rw [ey, rd_get sk (show (ap8 f (BitVec.ofNat 8 k)).toNat < 256 from (ap8 f (BitVec.ofNat 8 k)).isLt), C_pure_bind]
  generalize sk[(ap8 f (BitVec.ofNat 8 k)).toNat]! = b
  rw [ok_bind ((initVec_num _ _ (by decide)).trans (congrArg Except.ok (numVec_setWidth b (by decide))))]
  rw [show numVec 8 b = ⟨8, vec8 b⟩ from rfl, ok_bind (mulVec_run _ _), slice_vec, ← Matrix.mulVec_mulVec,
    ← vec_lin csl, lin_csl, ← vec_lin Q]
  exact get32_num _

theorem roundTables_run {g : Globals} {i : Nat} (hi : i < 32)
    {e : Nat → Aff8} (hE : ∀ d, d < 4 → ((g.E[i]!)[d]!)[0]! = emb8 (e d)) {Q : M32} {QLi : Vector MatGF2 4}
    (hq : ∀ d (hd : d < 4), QLi[d]! = ⟨32, 8, m4ri.sm4.slice d hd (mat32 Q * mat32 csl)⟩) (r : BitVec 32)
    (Tab : Vector (Vector (Vector (BitVec 32) 256) 4) 32) :
    Ok (roundTables g i QLi r Tab) fun a =>
      ∀ x d k, x < 32 → d < 4 → k < 256 → ((a[x]!)[d]!)[k]! =
        if x = i then lin Q (L (placed d ((g.skbox_enc[i]!)[d]!)[(ap8 (e d) (BitVec.ofNat 8 k)).toNat]!)) ^^^
          (if d = 3 then r else 0)
        else ((Tab[x]!)[d]!)[k]! := by
  rw [roundTables]
  refine Ok.forUp (fun t (a : Vector (Vector (Vector (BitVec 32) 256) 4) 32) =>
      ∀ x d k, x < 32 → d < 4 → k < 256 → ((a[x]!)[d]!)[k]! =
        if x = i ∧ k < t then
          lin Q (L (placed d ((g.skbox_enc[i]!)[d]!)[(ap8 (e d) (BitVec.ofNat 8 k)).toNat]!)) ^^^
          (if d = 3 then r else 0)
        else ((Tab[x]!)[d]!)[k]!) (by omega) ?_ ?_ ?_
  · intro x d k _ _ _
    rw [if_neg (by omega)]
  · rintro t Tab1 - ht h1
    refine Ok.bind (P := fun (a : Vector (Vector (Vector (BitVec 32) 256) 4) 32) =>
      ∀ x d k, x < 32 → d < 4 → k < 256 → ((a[x]!)[d]!)[k]! =
        if x = i ∧ k = t then lin Q (L (placed d ((g.skbox_enc[i]!)[d]!)[(ap8 (e d) (BitVec.ofNat 8 k)).toNat]!))
        else ((Tab1[x]!)[d]!)[k]!) ?_ ?_
    · refine Ok.forUp (fun u (a : Vector (Vector (Vector (BitVec 32) 256) 4) 32) =>
        ∀ x d k, x < 32 → d < 4 → k < 256 → ((a[x]!)[d]!)[k]! =
        if x = i ∧ k = t ∧ d < u then
          lin Q (L (placed d ((g.skbox_enc[i]!)[d]!)[(ap8 (e d) (BitVec.ofNat 8 k)).toNat]!))
        else ((Tab1[x]!)[d]!)[k]!) (by omega) ?_ ?_ ?_
      · intro x d k _ _ _
        rw [if_neg (by omega)]
      · rintro d Tab2 - hd h2
        rw [rd3_get g.E (show i < 36 by omega) (show d < 5 by omega) (show 0 < 2 by omega), C_pure_bind, hE d hd,
          rd2_get g.skbox_enc hi hd, C_pure_bind, rd_get QLi hd, C_pure_bind, hq d hd, ok_bind (tableEntry_run _ _ _ _ _)]
        obtain ⟨Tab3, hT3, g3⟩ := wr3_get Tab2 (i := i) (k := d) (t := t) hi hd ht
          (lin Q (L (placed d ((g.skbox_enc[i]!)[d]!)[(ap8 (e d) (BitVec.ofNat 8 t)).toNat]!)))
        refine ⟨Tab3, hT3, ?_⟩
        intro x d' k hx hd' hk
        rw [g3 x d' k hx hd' hk]
        by_cases c : x = i ∧ d' = d ∧ k = t
        · obtain ⟨rfl, rfl, rfl⟩ := c
          rw [if_pos ⟨rfl, rfl, rfl⟩, if_pos (by omega)]
        · rw [if_neg c, h2 x d' k hx hd' hk]
          by_cases c2 : x = i ∧ k = t ∧ d' < d
          · rw [if_pos c2, if_pos (by omega)]
          · rw [if_neg c2, if_neg (by omega)]
      · rintro Tab2 h2
        intro x d k hx hd hk
        rw [h2 x d k hx hd hk]
        by_cases c : x = i ∧ k = t
        · rw [if_pos c, if_pos (by omega)]
        · rw [if_neg c, if_neg (by omega)]
    · rintro Tab2 h2
      rw [rd3_get Tab2 hi (show 3 < 4 by omega) ht, C_pure_bind]
      obtain ⟨Tab3, hT3, g3⟩ := wr3_get Tab2 (i := i) (k := 3) (t := t) hi (by omega) ht (((Tab2[i]!)[3]!)[t]! ^^^ r)
      refine ⟨Tab3, hT3, ?_⟩
      intro x d k hx hd hk
      rw [g3 x d k hx hd hk]
      by_cases c : x = i ∧ d = 3 ∧ k = t
      · obtain ⟨rfl, rfl, rfl⟩ := c
        rw [if_pos ⟨rfl, rfl, rfl⟩, if_pos (by omega), h2 x 3 k hx (by omega) hk, if_pos ⟨rfl, rfl⟩, if_pos rfl]
      · rw [if_neg c, h2 x d k hx hd hk]
        by_cases c2 : x = i ∧ k = t
        · obtain ⟨rfl, rfl⟩ := c2
          rw [if_pos ⟨rfl, rfl⟩, if_pos (by omega), if_neg (by omega)]
          exact BitVec.xor_zero.symm
        · rw [if_neg c2, h1 x d k hx hd hk]
          by_cases c3 : x = i ∧ k < t
          · rw [if_pos c3, if_pos (show x = i ∧ k < t + 1 by omega)]
          · rw [if_neg c3, if_neg (show ¬ (x = i ∧ k < t + 1) by omega)]
  · rintro Tab1 h1
    intro x d k hx hd hk
    rw [h1 x d k hx hd hk]
    by_cases c : x = i
    · rw [if_pos c, if_pos ⟨c, hk⟩]
    · rw [if_neg c, if_neg (by omega)]

theorem encTables_run {g : Globals} {i : Nat} (hi : i < 32) {R : m4ri.sm4.Row} (hR : RowRel g i R)
    (Tab : Vector (Vector (Vector (BitVec 32) 256) 4) 32) :
    Ok (encTables stale g ⟨32, 32, mat32 csl⟩ i Tab) fun a =>
      ∀ x d k, x < 32 → d < 4 → k < 256 → ((a[x]!)[d]!)[k]! =
        if x = i then
          lin (R.q 0).Mat (L (placed d ((g.skbox_enc[i]!)[d]!)[(ap8 (R.e d 0) (BitVec.ofNat 8 k)).toNat]!)) ^^^
          (if d = 3 then (R.q 0).Vec else 0)
        else ((Tab[x]!)[d]!)[k]! := by
  rw [encTables]
  rw [rd2_get g.Q (show i < 36 by omega) (show 0 < 2 by omega), hR.Q 0 (by omega), C_pure_bind]
  rw [show (emb32 (R.q 0)).linearMap = ⟨32, 32, mat32 (R.q 0).Mat⟩ from rfl, ok_bind (mulMat_run _ _),
    ok_bind (sliceQL_run stale _ (show 0 < 4 by omega)), ok_bind (sliceQL_run stale _ (show 1 < 4 by omega)),
    ok_bind (sliceQL_run stale _ (show 2 < 4 by omega)), ok_bind (sliceQL_run stale _ (show 3 < 4 by omega)),
    C_pure_bind, show (emb32 (R.q 0)).vectorTranslation = numVec 32 (R.q 0).Vec from rfl, ok_bind (get32_num _)]
  refine roundTables_run hi (e := fun d => R.e d 0) hR.E (Q := (R.q 0).Mat) ?_ _ Tab
  intro d hd
  obtain rfl | rfl | rfl | rfl : d = 0 ∨ d = 1 ∨ d = 2 ∨ d = 3 := by omega
  all_goals rfl

theorem mix_emb (f h : Aff32) : ∃ m : Aff32, (∀ x, ap32 m x = ap32 f (ap32 h x)) ∧ mixM (emb32 f) (emb32 h) = .ok (emb32 m) ∧
    mixCD (emb32 f) (emb32 h) = .ok (emb32 m) := by
  obtain ⟨m, hm, hmv⟩ := exists32 (mat32 f.Mat * mat32 h.Mat) ((mat32 f.Mat).mulVec (vec32 h.Vec) + vec32 f.Vec)
  refine ⟨m, mix32_of hm hmv, ?_, ?_⟩
  · unfold mixM emb32 numVec
    simp only
    rw [ok_bind (mulMat_run _ _), ok_bind (mulVec_run _ _), ok_bind (addVec_run _ _), hm]
    refine congrArg (fun v => Except.ok (⟨⟨32, 32, mat32 f.Mat * mat32 h.Mat⟩, ⟨32, v⟩⟩ : Affine)) ?_
    exact hmv.symm
  · unfold mixCD emb32 numVec
    simp only
    rw [ok_bind (mulMat_run _ _), ok_bind (mulVec_run _ _), ok_bind (addVec_run _ _), hm]
    refine congrArg (fun v => Except.ok (⟨⟨32, 32, mat32 f.Mat * mat32 h.Mat⟩, ⟨32, v⟩⟩ : Affine)) ?_
    exact (add_comm _ _).trans hmv.symm

/-- The transforms of round `i` are the functions `Rd`. -/
structure RoundRel (ctx : Sm4Whitebox) (i : Nat) (Rd : m4ri.sm4.Round) : Prop where
  M : ∀ j, j < 3 → (ctx.M[i]!)[j]! = emb32 (Rd.m j)
  C : ctx.C[i]! = emb32 Rd.c
  D : ctx.D[i]! = emb32 Rd.d

/-- Round `x` of both is the same. -/
structure SameRound (ctx ctx' : Sm4Whitebox) (x : Nat) : Prop where
  M : ∀ k, k < 3 → (ctx'.M[x]!)[k]! = (ctx.M[x]!)[k]!
  C : ctx'.C[x]! = ctx.C[x]!
  D : ctx'.D[x]! = ctx.D[x]!
  T : ∀ d k, d < 4 → k < 256 → ((ctx'.Table[x]!)[d]!)[k]! = ((ctx.Table[x]!)[d]!)[k]!

theorem RoundRel.congr {ctx ctx' : Sm4Whitebox} {i : Nat} {Rd : m4ri.sm4.Round} (h : RoundRel ctx i Rd)
    (hs : SameRound ctx ctx' i) : RoundRel ctx' i Rd where
  M j hj := by rw [hs.M j hj]; exact h.M j hj
  C := by rw [hs.C]; exact h.C
  D := by rw [hs.D]; exact h.D

theorem roundEq_congr {R : Nat → m4ri.sm4.Row} {sk : Vector (Vector (Vector (BitVec 8) 256) 4) 32} {ctx ctx' : Sm4Whitebox}
    {i : Nat} {Rd : m4ri.sm4.Round} (h : m4ri.sm4.RoundEq R sk ctx.Table i Rd) (hs : SameRound ctx ctx' i) :
    m4ri.sm4.RoundEq R sk ctx'.Table i Rd :=
  ⟨h.M, fun d k hd hk => by rw [hs.T d k hd hk]; exact h.T d k hd hk, h.C, h.D⟩

theorem combineRound_run {g : Globals} {i : Nat} (hi : i < 32) {R : Nat → m4ri.sm4.Row}
    (hR : ∀ x, x < 36 → RowRel g x (R x)) (ctx : Sm4Whitebox) :
    Ok (combineRound stale g ⟨32, 32, mat32 csl⟩ i ctx) fun r =>
      (∃ Rd, RoundRel r i Rd ∧ m4ri.sm4.RoundEq R g.skbox_enc r.Table i Rd) ∧
      ∀ x, x < 32 → x ≠ i → SameRound ctx r x := by
  rw [combineRound]
  have rE := rd3_get g.E (show i < 36 by omega) (show 4 < 5 by omega) (show 1 < 2 by omega)
  have rP1 : ∀ j, j < 36 → rd2 g.P j 1 = Except.ok (emb32 ((R j).p 1)) := fun j hj => by
    rw [rd2_get g.P hj (show 1 < 2 by omega), (hR j hj).P 1 (by omega)]
  have rP0 : ∀ j, j < 36 → rd2 g.P j 0 = Except.ok (emb32 ((R j).p 0)) := fun j hj => by
    rw [rd2_get g.P hj (show 0 < 2 by omega), (hR j hj).P 0 (by omega)]
  have rQ1 : rd2 g.Q i 1 = Except.ok (emb32 ((R i).q 1)) := by
    rw [rd2_get g.Q (show i < 36 by omega) (show 1 < 2 by omega), (hR i (by omega)).Q 1 (by omega)]
  rw [(hR i (by omega)).EC] at rE
  obtain ⟨f0, q0, e0, -⟩ := mix_emb (R i).ec ((R (i + 1)).p 1)
  obtain ⟨f1, q1, e1, -⟩ := mix_emb (R i).ec ((R (i + 2)).p 1)
  obtain ⟨f2, q2, e2, -⟩ := mix_emb (R i).ec ((R (i + 3)).p 1)
  obtain ⟨f5, q5, -, e5⟩ := mix_emb ((R (i + 4)).p 0) ((R i).p 1)
  obtain ⟨f6, q6, -, e6⟩ := mix_emb ((R (i + 4)).p 0) ((R i).q 1)
  obtain ⟨M1, hM1, gM1⟩ := wr2_get ctx.M (i := i) (k := 0) hi (by omega) (emb32 f0)
  obtain ⟨M2, hM2, gM2⟩ := wr2_get M1 (i := i) (k := 1) hi (by omega) (emb32 f1)
  obtain ⟨M3, hM3, gM3⟩ := wr2_get M2 (i := i) (k := 2) hi (by omega) (emb32 f2)
  obtain ⟨Tab, eT, hT⟩ := encTables_run stale hi (hR i (by omega)) ctx.Table
  obtain ⟨C1, hC1, gC1⟩ := wr_get ctx.C (i := i) hi (emb32 f5)
  obtain ⟨D1, hD1, gD1⟩ := wr_get ctx.D (i := i) hi (emb32 { f6 with Vec := ((R (i + 4)).p 0).Vec ^^^ f6.Vec })
  rw [rE, C_pure_bind, rP1 (i + 1) (by omega), C_pure_bind, ok_bind e0, ok_bind hM1, C_pure_bind, rP1 (i + 2) (by omega),
    C_pure_bind, ok_bind e1, ok_bind hM2, C_pure_bind, rP1 (i + 3) (by omega), C_pure_bind, ok_bind e2, ok_bind hM3,
    ok_bind eT, rP0 (i + 4) (by omega), C_pure_bind, rP1 i (by omega), C_pure_bind, ok_bind e5, ok_bind hC1,
    C_pure_bind, rQ1, C_pure_bind, ok_bind e6, C_pure_bind]
  rw [show (emb32 ((R (i + 4)).p 0)).vectorTranslation = numVec 32 ((R (i + 4)).p 0).Vec from rfl,
    show (emb32 f6).vectorTranslation = numVec 32 f6.Vec from rfl, ok_bind (addVec_num _ _)]
  refine ⟨_, ok_bind hD1, ⟨⟨fun j => if j = 0 then f0 else if j = 1 then f1 else f2, f5,
    { f6 with Vec := ((R (i + 4)).p 0).Vec ^^^ f6.Vec }⟩, ⟨?_, ?_, ?_⟩, ⟨?_, ?_, ?_, ?_⟩⟩, ?_⟩
  · intro j hj
    show (M3[i]!)[j]! = _
    rw [gM3 i j hi (by omega), gM2 i j hi (by omega), gM1 i j hi (by omega)]
    obtain rfl | rfl | rfl : j = 0 ∨ j = 1 ∨ j = 2 := by omega
    · rw [if_neg (by omega), if_neg (by omega), if_pos (by omega)]; rfl
    · rw [if_neg (by omega), if_pos (by omega)]; rfl
    · rw [if_pos (by omega)]; rfl
  · show C1[i]! = _
    rw [gC1 i hi, if_pos rfl]
  · show D1[i]! = _
    rw [gD1 i hi, if_pos rfl]
  · intro j hj x
    obtain rfl | rfl | rfl : j = 0 ∨ j = 1 ∨ j = 2 := by omega
    · exact q0 x
    · exact q1 x
    · exact q2 x
  · intro d k hd hk
    show ((Tab[i]!)[d]!)[k]! = _
    rw [hT i d k hi hd hk, if_pos rfl]
  · exact q5
  · intro x
    show ap32 { f6 with Vec := ((R (i + 4)).p 0).Vec ^^^ f6.Vec } x = _
    rw [BitVec.xor_comm, ap32_addVec, q6]
  · intro x hx hne
    constructor
    · intro k hk
      show (M3[x]!)[k]! = _
      rw [gM3 x k hx hk, gM2 x k hx hk, gM1 x k hx hk, if_neg (by omega), if_neg (by omega), if_neg (by omega)]
    · show C1[x]! = _
      rw [gC1 x hx, if_neg hne]
    · show D1[x]! = _
      rw [gD1 x hx, if_neg hne]
    · intro d k hd hk
      show ((Tab[x]!)[d]!)[k]! = _
      rw [hT x d k hx hd hk, if_neg hne]

/-- What the tables look like after `sm4_wb_combine_tables`. -/
structure CtxRel (R : Nat → m4ri.sm4.Row) (sk : Vector (Vector (Vector (BitVec 8) 256) 4) 32)
    (ctx : Sm4Whitebox) (Rd : Nat → m4ri.sm4.Round) : Prop where
  round : ∀ i, i < 32 → RoundRel ctx i (Rd i) ∧ m4ri.sm4.RoundEq R sk ctx.Table i (Rd i)
  SE : ∀ j, j < 4 → ctx.SE[j]! = emb32 ((R j).p 0)
  FE : ∀ j, j < 4 → ctx.FE[j]! = emb32 ((R (32 + j)).p 1)

theorem combine_run {g : Globals} {R : Nat → m4ri.sm4.Row} (hR : ∀ x, x < 36 → RowRel g x (R x)) (ctx : Sm4Whitebox) :
    Ok (sm4_wb_combine_tables stale g ctx ⟨32, 32, mat32 csl⟩) fun ctx' => ∃ Rd, CtxRel R g.skbox_enc ctx' Rd := by
  rw [sm4_wb_combine_tables]
  refine Ok.bind (P := fun r => ∃ Rd : Nat → m4ri.sm4.Round,
    ∀ i, i < 32 → RoundRel r i (Rd i) ∧ m4ri.sm4.RoundEq R g.skbox_enc r.Table i (Rd i)) ?_ ?_
  · refine Ok.forUp (fun t r => ∃ Rd : Nat → m4ri.sm4.Round,
      ∀ i, i < t → RoundRel r i (Rd i) ∧ m4ri.sm4.RoundEq R g.skbox_enc r.Table i (Rd i)) (by omega)
      ⟨fun _ => ⟨fun _ => default, default, default⟩, fun i h => by omega⟩ ?_ (fun _ h => h)
    rintro i ctx1 - hi ⟨Rd, h1⟩
    refine (combineRound_run stale hi hR ctx1).mono ?_
    rintro ctx2 ⟨⟨Rd', h2, h3⟩, hsame⟩
    refine ⟨fun x => if x = i then Rd' else Rd x, ?_⟩
    intro x hx
    show RoundRel ctx2 x (if x = i then Rd' else Rd x) ∧
      m4ri.sm4.RoundEq R g.skbox_enc ctx2.Table x (if x = i then Rd' else Rd x)
    by_cases e : x = i
    · subst e; rw [if_pos rfl]; exact ⟨h2, h3⟩
    · rw [if_neg e]
      obtain ⟨h4, h5⟩ := h1 x (by omega)
      have hs := hsame x (by omega) e
      exact ⟨h4.congr hs, roundEq_congr h5 hs⟩
  rintro ctx1 ⟨Rd, h1⟩
  refine Ok.forUp (fun t (ctx' : Sm4Whitebox) => ∃ Rd : Nat → m4ri.sm4.Round,
      (∀ i, i < 32 → RoundRel ctx' i (Rd i) ∧ m4ri.sm4.RoundEq R g.skbox_enc ctx'.Table i (Rd i)) ∧
      ∀ j, j < t → ctx'.SE[j]! = emb32 ((R j).p 0) ∧ ctx'.FE[j]! = emb32 ((R (32 + j)).p 1)) (by omega)
      ⟨Rd, h1, fun j h => by omega⟩ ?_
      (fun ctx' h => by
        obtain ⟨Rd, h1, h2⟩ := h
        exact ⟨Rd, h1, fun j hj => (h2 j hj).1, fun j hj => (h2 j hj).2⟩)
  rintro j ctx2 - hj ⟨Rd, h2, hse⟩
  rw [rd2_get g.P (show j < 36 by omega) (show 0 < 2 by omega), C_pure_bind]
  obtain ⟨SE, hSE, gSE⟩ := wr_get ctx2.SE (i := j) hj (g.P[j]!)[0]!
  rw [ok_bind hSE, rd2_get g.P (show 32 + j < 36 by omega) (show 1 < 2 by omega), C_pure_bind]
  obtain ⟨FE, hFE, gFE⟩ := wr_get ctx2.FE (i := j) hj (g.P[32 + j]!)[1]!
  refine ⟨_, ok_bind hFE, Rd, ?_, ?_⟩
  · intro i hi
    obtain ⟨h5, h4⟩ := h2 i hi
    exact ⟨⟨h5.M, h5.C, h5.D⟩, h4⟩
  · intro i hi
    show SE[i]! = _ ∧ FE[i]! = _
    rw [gSE i (by omega), gFE i (by omega)]
    by_cases e : i = j
    · subst e
      rw [if_pos rfl, if_pos rfl]
      exact ⟨(hR i (by omega)).P 0 (by omega), (hR (32 + i) (by omega)).P 1 (by omega)⟩
    · rw [if_neg e, if_neg e]
      exact hse i (by omega)

/-! ## The whole generation -/

theorem initMatrixL_run : initMatrixL stale default = .ok ⟨32, 32, mat32 csl⟩ := by
  unfold initMatrixL
  obtain ⟨D, e⟩ := SetDims_eq stale default 32 32
  rw [e]
  have hlen : 32 ≤ (sm4_csl_xor_matrix (W := 64)).toList.length := by rw [Vector.length_toList]
  rw [initMatrix_run D _ hlen]
  congr 2
  funext i j
  have hi := i.2
  have hj := j.2
  have hs := congrFun (vec_inj (numVec_signExtend (n := 32) (w' := 32) ((sm4_csl_xor_matrix (W := 64)).toList[i.val]'(by omega))
    (by decide) (Nat.le_refl _))) j
  refine hs.trans ?_
  show bitF (((sm4_csl_xor_matrix (W := 64)).toList[i.val]'(by omega)).getLsbD (32 - 1 - j)) = bitF ((csl[i.val]).getLsbD (32 - 1 - j))
  rw [Vector.getElem_toList]
  congr 1
  simp only [csl_map, csl, Vector.getElem_map]
  rw [BitVec.getLsbD_ofNat, BitVec.getLsbD_ofNat]
  have h1 : decide (32 - 1 - j.val < 64) = true := by simp; omega
  have h2 : decide (32 - 1 - j.val < 32) = true := by simp; omega
  rw [h1, h2]

/-- The transforms of `ctx` are the functions in `w`, and both have the same lookup tables. -/
structure Ctx (ctx : Sm4Whitebox) (w : wbsm4.Sm4Whitebox) : Prop where
  M : ∀ i j, i < 32 → j < 3 → (ctx.M[i]!)[j]! = emb32 (w.M[i]!)[j]!
  C : ∀ i, i < 32 → ctx.C[i]! = emb32 w.C[i]!
  D : ∀ i, i < 32 → ctx.D[i]! = emb32 w.D[i]!
  SE : ∀ i, i < 4 → ctx.SE[i]! = emb32 w.SE[i]!
  FE : ∀ i, i < 4 → ctx.FE[i]! = emb32 w.FE[i]!
  Table : w.Table = ctx.Table

theorem gen_tables_gen (env : Env) (key : Vector (BitVec 8) 16) (g : Globals) (ctx : Sm4Whitebox) :
    Gen (1 ≤ fuel) (sm4_wb_gen_tables stale fuel env key g ctx) fun r =>
      ∃ wg w, TablesOk (roundKey (load (bytes key) 0)) wg w ∧ Ctx r.2 w := by
  rw [sm4_wb_gen_tables]
  obtain ⟨kc, ek, -, hk⟩ := sm4_setkey_enc_ok (W := 64) (by omega) env key (junkCtx env 64)
  refine Gen.step ek ?_
  obtain ⟨sk, es, hsk⟩ := m4ri.sm4.gen_sbox_ok env kc _ hk g.skbox_enc
  refine Gen.step es ?_
  refine Gen.bind (gen_affine_gen stale fuel { g with skbox_enc := sk }) ?_
  rintro g1 ⟨⟨R, hR⟩, hg1⟩
  have hg1' : g1.skbox_enc = sk := hg1
  refine Gen.step (initMatrixL_run stale) ?_
  obtain ⟨ctx', e, Rd, hctx⟩ := combine_run stale hR ctx
  refine Gen.step e ?_
  refine Gen.pure ⟨m4ri.sm4.absGlobals R sk, m4ri.sm4.absCtx R Rd ctx'.Table,
    m4ri.sm4.abs_ok (fun i hi => (hR i hi).ok) hsk (fun i hi => ?_), ?_⟩
  · rw [← hg1']; exact (hctx.round i hi).2
  · constructor
    · intro i j hi hj
      rw [m4ri.sm4.abs_M R Rd _ hi hj]
      exact (hctx.round i hi).1.M j hj
    · intro i hi
      rw [m4ri.sm4.abs_C R Rd _ hi]
      exact (hctx.round i hi).1.C
    · intro i hi
      rw [m4ri.sm4.abs_D R Rd _ hi]
      exact (hctx.round i hi).1.D
    · intro i hi
      rw [m4ri.sm4.abs_SE R Rd _ hi]
      exact hctx.SE i hi
    · intro i hi
      rw [m4ri.sm4.abs_FE R Rd _ hi]
      exact hctx.FE i hi
    · rfl

/-! ## Encryption -/

theorem round_eq {wl : Lib} (hw : LibOk wl) {ctx : Sm4Whitebox} {w : wbsm4.Sm4Whitebox}
    (hc : Ctx ctx w) {i : Nat} (hi : i < 32) (x0 x1 x2 x3 : BitVec 32) :
    sm4round ctx i x0 x1 x2 x3 = wbsm4.sm4round wl w i x0 x1 x2 x3 := by
  unfold sm4round wbsm4.sm4round
  simp only [rd2_get ctx.M hi (show 0 < 3 by omega), rd2_get ctx.M hi (show 1 < 3 by omega),
    rd2_get ctx.M hi (show 2 < 3 by omega), rd2_get w.M hi (show 0 < 3 by omega), rd2_get w.M hi (show 1 < 3 by omega),
    rd2_get w.M hi (show 2 < 3 by omega), rd_get ctx.C hi, rd_get w.C hi, rd_get ctx.D hi, rd_get w.D hi, C_pure_bind,
    hc.M i 0 hi (by omega), hc.M i 1 hi (by omega), hc.M i 2 hi (by omega), hc.C i hi, hc.D i hi, apply_emb32, hw.u32,
    hc.Table]

theorem enc_eq {wl : Lib} (hw : LibOk wl) {ctx : Sm4Whitebox} {w : wbsm4.Sm4Whitebox}
    (hc : Ctx ctx w) (IN OUT : Vector (BitVec 8) 16) : sm4_wb_enc IN OUT ctx = wbsm4.sm4_wb_enc wl IN OUT w := by
  have hloop : ∀ x : BitVec 32 × BitVec 32 × BitVec 32 × BitVec 32,
      (WB.forUp 0 32 x fun i (x0, x1, x2, x3) => do
        let x4 ← sm4round ctx i x0 x1 x2 x3
        pure (x1, x2, x3, x4)) =
      (WB.forUp 0 32 x fun i (x0, x1, x2, x3) => do
        let x4 ← wbsm4.sm4round wl w i x0 x1 x2 x3
        pure (x1, x2, x3, x4) : WB.C _) := by
    intro x
    refine forUp_congr _ fun i x _ hi => ?_
    obtain ⟨x0, x1, x2, x3⟩ := x
    simp only
    rw [round_eq hw hc hi]
  unfold sm4_wb_enc wbsm4.sm4_wb_enc
  simp only [rd_get ctx.SE (show 0 < 4 by omega), rd_get ctx.SE (show 1 < 4 by omega), rd_get ctx.SE (show 2 < 4 by omega),
    rd_get ctx.SE (show 3 < 4 by omega), rd_get w.SE (show 0 < 4 by omega), rd_get w.SE (show 1 < 4 by omega),
    rd_get w.SE (show 2 < 4 by omega), rd_get w.SE (show 3 < 4 by omega),
    rd_get ctx.FE (show 0 < 4 by omega), rd_get ctx.FE (show 1 < 4 by omega), rd_get ctx.FE (show 2 < 4 by omega),
    rd_get ctx.FE (show 3 < 4 by omega), rd_get w.FE (show 0 < 4 by omega), rd_get w.FE (show 1 < 4 by omega),
    rd_get w.FE (show 2 < 4 by omega), rd_get w.FE (show 3 < 4 by omega), C_pure_bind,
    hc.SE 0 (by omega), hc.SE 1 (by omega), hc.SE 2 (by omega), hc.SE 3 (by omega),
    hc.FE 0 (by omega), hc.FE 1 (by omega), hc.FE 2 (by omega), hc.FE 3 (by omega), apply_emb32, hw.u32, hloop]

theorem enc_run {ctx : Sm4Whitebox} {wg : wbsm4.Globals} {w : wbsm4.Sm4Whitebox}
    {rk : Nat → BitVec 32} (ht : TablesOk rk wg w) (hc : Ctx ctx w) (IN OUT : Vector (BitVec 8) 16) :
    Ok (sm4_wb_enc IN OUT ctx) fun o => load (bytes o) 0 = crypt rk (load (bytes IN) 0) := by
  have hw := libOk_current ⟨.little, fun _ => 0⟩ rfl
  rw [enc_eq hw hc]
  exact enc_ok hw ht IN OUT

theorem main_gen (env : Env) (n : Nat) (g : Globals) (ctx : Sm4Whitebox)
    (OUT : Vector (BitVec 8) 16) : Gen (1 ≤ fuel) (main stale fuel env n g ctx OUT) fun r =>
      (0 < n → load (bytes r.2.2) 0 = crypt (roundKey (load (bytes m4ri.sm4.mainKey) 0)) (load (bytes m4ri.sm4.mainIN) 0)) := by
  unfold main
  refine Gen.bind (Gen.forUp (fun t (x : Globals × Sm4Whitebox) =>
    (0 < t → ∃ wg w, TablesOk (roundKey (load (bytes m4ri.sm4.mainKey) 0)) wg w ∧ Ctx x.2 w)) (fun h => absurd h (by omega)) ?_
    (fun _ h => h)) ?_
  · rintro t ⟨g, ctx⟩ - -
    refine (gen_tables_gen stale fuel env m4ri.sm4.mainKey g ctx).mono ?_
    rintro ⟨g', ctx'⟩ h2
    exact fun _ => h2
  · rintro ⟨g', ctx'⟩ h1
    refine Gen.bind (P := fun o =>
      (0 < n → load (bytes o) 0 = crypt (roundKey (load (bytes m4ri.sm4.mainKey) 0)) (load (bytes m4ri.sm4.mainIN) 0)))
      (Gen.lift ?_) fun o h2 => Gen.pure h2
    refine Ok.forUp (fun t o =>
      (0 < t → load (bytes o) 0 = crypt (roundKey (load (bytes m4ri.sm4.mainKey) 0)) (load (bytes m4ri.sm4.mainIN) 0)))
      (Nat.zero_le n) (fun h => absurd h (by omega)) ?_ (fun o h => h)
    rintro t o - ht -
    obtain ⟨wg, w, htab, hc⟩ := h1 (by omega)
    exact (enc_run htab hc m4ri.sm4.mainIN o).mono fun _ h _ => h

end sm4
end WB.ntl
