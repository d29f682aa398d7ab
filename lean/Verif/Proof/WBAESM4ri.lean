import Mathlib.Algebra.BigOperators.Fin
import Verif.Proof.AESLoop
import Verif.Proof.WBAESM4riGen
import Verif.Prop.C65

/-!
# The tables of the M4RI based AES demo (helper lemmas)
-/
namespace WB.m4ri.aes
open WB.aes
open WB.wbsm4 (rd3 wr3)

variable {lib : M4ri} {s s' s'' s0 : Heap} {k l : Nat} {α β : Type}

/-! ## Simulation -/

/-- Whenever `y` succeeds, `x` succeeds with the same result, and `k` more matrices exist afterwards. -/
def SimT (J J' : Nat → Heap → Prop) (k : Nat) (x : MM α) (y : WB.C α) : Prop :=
  ∀ n s a, J n s → y = .ok a → Run x s fun b s' => b = a ∧ J' (n + k) s'

variable {J J' J'' : Nat → Heap → Prop} {x : MM α} {y : WB.C α}

theorem C_bind_ok {y : WB.C α} {g : α → WB.C β} {b : β} (h : (y >>= g) = .ok b) : ∃ a, y = .ok a ∧ g a = .ok b := by
  cases y with
  | error e => cases h
  | ok a => exact ⟨a, rfl, h⟩

theorem SimT.lift (y : WB.C α) : SimT J J 0 (liftC y) y :=
  fun _ _ a hJ e => Run.of_eq (liftC_run _ e) ⟨rfl, hJ⟩

theorem SimT.pure (a : α) : SimT J J 0 (pure a : MM α) (pure a) := by
  intro n s b hJ e
  cases e
  exact Run.pure ⟨rfl, hJ⟩

theorem SimT.bind {f : α → MM β} {g : α → WB.C β} (h : SimT J J' k x y) (hf : ∀ a, SimT J' J'' l (f a) (g a)) :
    SimT J J'' (k + l) (x >>= f) (y >>= g) := by
  intro n s b hJ e
  obtain ⟨a, ea, eb⟩ := C_bind_ok e
  refine Run.bind (h n s a hJ ea) ?_
  rintro _ s' ⟨rfl, hJ'⟩
  rw [← Nat.add_assoc]
  exact hf _ _ _ _ hJ' eb

/-- A step that has no counterpart. -/
theorem SimT.left {x : MM PUnit} {f : PUnit → MM β} {y : WB.C β} (h : SimT J J' k x (Pure.pure ())) (hf : SimT J' J'' l (f ()) y) :
    SimT J J'' (k + l) (x >>= f) y := by
  intro n s b hJ e
  refine Run.bind (h n s () hJ rfl) ?_
  rintro _ s' ⟨-, hJ'⟩
  rw [← Nat.add_assoc]
  exact hf _ _ _ hJ' e

theorem SimT.cast (h : SimT J J' k x y) (e : k = l) : SimT J J' l x y := e ▸ h

theorem SimT.mono (h : SimT J J' k x y) (hJ : ∀ n s, J' n s → J'' n s) : SimT J J'' k x y :=
  fun n s a h1 e => (h n s a h1 e).mono fun _ _ ⟨h2, h3⟩ => ⟨h2, hJ _ _ h3⟩

theorem SimT.pre (h : SimT J' J'' k x y) (hJ : ∀ n s, J n s → J' n s) : SimT J J'' k x y :=
  fun n s a h1 e => h n s a (hJ _ _ h1) e

theorem SimT.ite {c : Prop} [Decidable c] {x1 x2 : MM α} {y1 y2 : WB.C α} (h1 : c → SimT J J' k x1 y1)
    (h2 : ¬ c → SimT J J' l x2 y2) : SimT J J' (if c then k else l) (if c then x1 else x2) (if c then y1 else y2) := by
  by_cases hc : c
  · rw [if_pos hc, if_pos hc, if_pos hc]; exact h1 hc
  · rw [if_neg hc, if_neg hc, if_neg hc]; exact h2 hc

theorem SimT.foldlM {σ : Type} {K : Nat → Nat} {f : Nat → σ → MM σ} {g : Nat → σ → WB.C σ} : ∀ (l : List Nat)
    (_ : ∀ i ∈ l, ∀ t, SimT J J (K i) (f i t) (g i t)) (t : σ), SimT J J ((l.map K).sum) (l.foldlM (fun s i => f i s) t)
      (l.foldlM (fun s i => g i s) t)
  | [], _, t => SimT.pure t
  | a :: l, h, t => by
    rw [List.foldlM_cons, List.foldlM_cons, List.map_cons, List.sum_cons]
    exact (h a (by simp) t).bind fun t => SimT.foldlM l (fun i hi => h i (by simp [hi])) t

theorem SimT.forUp {σ : Type} {K : Nat → Nat} {hi : Nat} {f : Nat → σ → MM σ} {g : Nat → σ → WB.C σ}
    (h : ∀ i, i < hi → ∀ t, SimT J J (K i) (f i t) (g i t)) (t : σ) :
    SimT J J (((List.range' 0 hi).map K).sum) (WB.forUp 0 hi t f) (WB.forUp 0 hi t g) :=
  SimT.foldlM _ (fun i hm t => h i (by rw [List.mem_range'] at hm; omega) t) t

theorem sum_const (hi c : Nat) : ((List.range' 0 hi).map fun _ => c).sum = hi * c := by simp

/-! ## The invariant -/

/-- The pointers `m` stand for the matrices `w`. -/
structure Bound (m : Mixing) (w : WB.aes.Mixing) (v : Vecs) (s : Heap) : Prop where
  b8 : ∀ i k c, i < 10 → k < 16 → c < 2 → Points s (((m.mb_8x8[i]!)[k]!)[c]!) (mat8 (((w.mb_8x8[i]!)[k]!)[c]!)) ∧
    ((m.mb_8x8[i]!)[k]!)[c]! ∉ v.set
  b32 : ∀ i k c, i < 10 → k < 4 → c < 2 → Points s (((m.mb_32x32[i]!)[k]!)[c]!) (mat32 (((w.mb_32x32[i]!)[k]!)[c]!)) ∧
    ((m.mb_32x32[i]!)[k]!)[c]! ∉ v.set

/-- The invariant of the loops. -/
structure Inv (s0 : Heap) (m : Mixing) (w : WB.aes.Mixing) (v : Vecs) (n : Nat) (s : Heap) : Prop where
  base : Base s0 v n s
  bound : Bound m w v s

theorem Inv.grow {m : Mixing} {w : WB.aes.Mixing} {v : Vecs} {n n' : Nat} (h : Inv s0 m w v n s) (he : Ext n' s0 ∅ s' ∅)
    (hs : Stays s s') : Inv s0 m w v n' s' :=
  ⟨h.base.grow he hs, ⟨fun i k c h1 h2 h3 => ⟨hs.points (h.bound.b8 i k c h1 h2 h3).1, (h.bound.b8 i k c h1 h2 h3).2⟩,
    fun i k c h1 h2 h3 => ⟨hs.points (h.bound.b32 i k c h1 h2 h3).1, (h.bound.b32 i k c h1 h2 h3).2⟩⟩⟩

theorem colVec_setWidth {n w w' : Nat} (x : BitVec w) (h : n ≤ w') : colVec n (x.setWidth w') = colVec n x := by
  funext i j
  have := i.2
  show bitF ((x.setWidth w').getLsbD (n - 1 - i)) = bitF (x.getLsbD (n - 1 - i))
  rw [BitVec.getLsbD_setWidth]
  simp only [show n - 1 - i.val < w' by omega, decide_true, Bool.true_and]

theorem colVec_signExtend {n w w' : Nat} (x : BitVec w) (h : n ≤ w) (h' : n ≤ w') :
    colVec n (x.signExtend w') = colVec n x := by
  funext i j
  have := i.2
  show bitF ((x.signExtend w').getLsbD (n - 1 - i)) = bitF (x.getLsbD (n - 1 - i))
  rw [BitVec.getLsbD_signExtend]
  simp only [show n - 1 - i.val < w' by omega, show n - 1 - i.val < w by omega, decide_true, Bool.true_and, if_pos]

theorem eq_of_colVec {n w : Nat} {y : BitVec w} {z : BitVec n} (h : colVec n y = colVec n z) (hn : n ≤ w) (hy : y.toNat < 2 ^ n) :
    y = z.setWidth w := by
  have h1 : y.setWidth n = z := colVec_inj (by rw [colVec_setWidth _ (Nat.le_refl _)]; exact h)
  rw [← h1]
  apply BitVec.eq_of_toNat_eq
  rw [BitVec.toNat_setWidth, BitVec.toNat_setWidth, Nat.mod_eq_of_lt hy, Nat.mod_eq_of_lt y.isLt]

theorem mulDigital_run (hl : lib.Ok) (h0 : s0.Ok) {N n a p : Nat} (he : Ext N s0 ∅ s ∅) (hn : n ≤ 32) {A : Vector (BitVec n) n}
    {x : BitVec n} (ha : Points s a (matOf n (bitS n) A)) (hp : Points s p (colVec n x))
    (hn0 : 0 < n := by omega) : Run (mulDigital lib a p) s fun y s' => y = (lin A x).setWidth 32 ∧ Ext (N + 1) s0 ∅ s' ∅ ∧ Stays s s' := by
  rw [mulDigital]
  refine Run.bind ((mul_new hl he.own.ok ha hp).more h0 he) ?_
  rintro q s1 ⟨e1, pq, -, -, f1, -⟩
  obtain ⟨y, ey, hy, hlt⟩ := C65_getDigitalFromVec e1.own.ok hn pq
  refine Run.of_eq ey ⟨eq_of_colVec ?_ hn hlt, e1, fun q m hm => f1 q m (he.own.ok.ne_zero hm) hm⟩
  rw [hy, mul_colVec]

theorem mul32_run (hl : lib.Ok) (h0 : s0.Ok) {N a p : Nat} (he : Ext N s0 ∅ s ∅) {A : M32}
    {x : BitVec 32} (ha : Points s a (mat32 A)) (hp : Points s p (colVec 32 x)) :
    Run (mul32 lib a p) s fun y s' => y = lin A x ∧ Ext (N + 1) s0 ∅ s' ∅ ∧ Stays s s' := by
  rw [mul32]
  refine Run.bind ((mul_new hl he.own.ok ha hp).more h0 he) ?_
  rintro q s1 ⟨e1, pq, -, -, f1, -⟩
  obtain ⟨y, ey, hy, hlt⟩ := C65_get32FromVec e1.own.ok rfl pq
  refine Run.of_eq ey ⟨(eq_of_colVec (z := lin A x) ?_ (Nat.le_refl _) hlt).trans (BitVec.setWidth_eq _), e1,
    fun q m hm => f1 q m (he.own.ok.ne_zero hm) hm⟩
  rw [hy, mul_colVec]

/-- `InitVecFromBit` on a matrix that is new since `s0`. -/
theorem init_run {N n p : Nat} (he : Ext N s0 ∅ s ∅) {V : Matrix (Fin n) (Fin 1) (ZMod 2)} (hp : Points s p V)
    (hp0 : s0.obj p = none) (x : BitVec 64) :
    Run (InitVecFromBit x p) s fun _ s' => Ext N s0 ∅ s' ∅ ∧ Points s' p (colVec n x) ∧
      ∀ q m, q ≠ p → s.obj q = some m → s'.obj q = some m := by
  obtain ⟨m', e, hm'⟩ := C65_InitVecFromBit he.own.ok hp x
  obtain ⟨m, hm, -⟩ := hp
  exact Run.of_eq e ⟨he.change hp0 hm (by simp) m', ⟨m', by simp, hm'⟩, fun q a hq ha => by rw [setObj_ne _ _ hq]; exact ha⟩

/-- The invariant together with a local vector. -/
def InvX (s0 : Heap) (m : Mixing) (w : WB.aes.Mixing) (v : Vecs) (xx : Nat) (x : BitVec 8) (n : Nat) (s : Heap) : Prop :=
  Inv s0 m w v n s ∧ Points s xx (colVec 8 x)

variable {m : Mixing} {w : WB.aes.Mixing} {v : Vecs}

theorem newXX_sim (h0 : s0.Ok) (x : Nat) {f : Nat → MM β} {y : WB.C β}
    (hf : ∀ xx, SimT (InvX s0 m w v xx (BitVec.ofNat 8 x)) J'' l (f xx) y) :
    SimT (Inv s0 m w v) J'' (1 + l) (newXX x >>= f) y := by
  intro n s b hJ e
  refine Run.bind (P := fun xx s' => InvX s0 m w v xx (BitVec.ofNat 8 x) (n + 1) s') ?_ ?_
  · rw [newXX]
    refine Run.bind ((zero_new s 8 1).more h0 hJ.base.ext) ?_
    rintro xx s1 ⟨e1, px, nx0, -, f1, nx⟩
    refine Run.bind (init_run e1 px nx0 (BitVec.ofNat 64 x)) ?_
    rintro _ s2 ⟨e2, px, f2⟩
    have hst : Stays s s2 := fun q a ha => f2 q a (by rintro rfl; rw [nx] at ha; cases ha)
      (f1 q a (hJ.base.ext.own.ok.ne_zero ha) ha)
    refine Run.pure ⟨hJ.grow e2 hst, ?_⟩
    have : colVec 8 (BitVec.ofNat 64 x) = colVec 8 (BitVec.ofNat 8 x) := by
      rw [← colVec_setWidth (BitVec.ofNat 64 x) (Nat.le_refl 8)]
      congr 1
      apply BitVec.eq_of_toNat_eq
      simp only [BitVec.toNat_setWidth, BitVec.toNat_ofNat]
      exact Nat.mod_mod_of_dvd x (by decide)
    rwa [this] at px
  · intro xx s' hx
    refine (hf xx _ _ _ hx e).mono fun c t ⟨h1, h2⟩ => ⟨h1, ?_⟩
    rwa [← Nat.add_assoc]

/-- The product of an `8×8` matrix with the local vector. -/
theorem mulX_sim (hl : lib.Ok) (h0 : s0.Ok) {wl : Lib} (hw : LibOk wl) {xx : Nat} {x : BitVec 8} {i k c : Nat} (hi : i < 10)
    (hk : k < 16) (hc : c < 2) {f : BitVec 32 → MM β} {g : BitVec 8 → WB.C β}
    (h : ∀ r, SimT (InvX s0 m w v xx x) J'' l (f (r.setWidth 32)) (g r)) :
    SimT (InvX s0 m w v xx x) J'' (1 + l) (liftC (rd3 m.mb_8x8 i k c) >>= fun a => mulDigital lib a xx >>= f)
      (rd3 w.mb_8x8 i k c >>= fun A => wl.MatMulNumM8 A x >>= g) := by
  rw [rd3_get m.mb_8x8 hi hk hc, rd3_get w.mb_8x8 hi hk hc]
  intro n s b hJ e
  refine Run.step (liftC_run _ rfl) ?_
  have e : (wl.MatMulNumM8 (((w.mb_8x8[i]!)[k]!)[c]!) x >>= g) = .ok b := e
  rw [hw.u8] at e
  refine Run.bind (mulDigital_run hl h0 hJ.1.base.ext (by omega) (hJ.1.bound.b8 i k c hi hk hc).1 hJ.2) ?_
  rintro _ s1 ⟨rfl, e1, hst⟩
  rw [← Nat.add_assoc]
  exact h _ _ _ _ ⟨hJ.1.grow e1 hst, hst.points hJ.2⟩ e

/-! ## The boxes -/

theorem bijInEntry_sim (hl : lib.Ok) (h0 : s0.Ok) {wl : Lib} (hw : LibOk wl) {i j : Nat} (hi : i < 10) (hj : j < 16) (x : Nat)
    (t : Vector (Vector (Vector (BitVec 32) 256) 16) 10) :
    SimT (Inv s0 m w v) (Inv s0 m w v) 2 (bijInEntry lib m i j x t) (do
      wr3 t i j x ((← wl.MatMulNumM8 (← rd3 w.mb_8x8 i j 0) (BitVec.ofNat 8 x)).setWidth 32)) := by
  rw [bijInEntry]
  refine (newXX_sim h0 x (l := 1) fun xx => ?_).cast rfl
  exact (mulX_sim (l := 0) hl h0 hw hi hj (by omega) fun r => (SimT.lift (wr3 t i j x (r.setWidth 32))).mono fun _ _ h => h.1).cast rfl

theorem boxInput_sim (hl : lib.Ok) (h0 : s0.Ok) {wl : Lib} (hw : LibOk wl) {i j : Nat} (hi : i < 10) (hj : j < 16) (x : Nat)
    (T : Tables) : SimT (Inv s0 m w v) (Inv s0 m w v) (1 + if 0 < i ∧ i < 9 then 1 else 0) (boxInput lib m T i j x)
      (WB.aes.boxInput wl w T i j x) := by
  rw [boxInput, WB.aes.boxInput]
  refine newXX_sim h0 x fun xx => ?_
  by_cases c : 0 < i ∧ i < 9
  · rw [if_pos c, if_pos c, if_pos c]
    simp only [if_pos c, bind_assoc, pure_bind]
    refine mulX_sim (l := 0) (i := i - 1) (k := j) (c := 1) hl h0 hw (by omega) hj (by omega) fun r => ?_
    exact (SimT.lift _).mono fun _ _ h => h.1
  · rw [if_neg c, if_neg c, if_neg c]
    simp only [if_neg c, pure_bind]
    exact (SimT.pure _).mono fun _ _ h => h.1

theorem fillBox_sim (hl : lib.Ok) (h0 : s0.Ok) {wl : Lib} (hw : LibOk wl) {i j : Nat} (hi : i < 10) (hj : j < 16) (x : Nat)
    (ek : Vector (BitVec 8) 176) (T : Tables) : SimT (Inv s0 m w v) (Inv s0 m w v) (1 + if 0 < i ∧ i < 9 then 1 else 0)
      (fillBox lib m ek i j x T) (WB.aes.fillBox wl w ek i j x T) := by
  rw [fillBox, WB.aes.fillBox]
  refine SimT.cast (l := 1 + if 0 < i ∧ i < 9 then 1 else 0) ((boxInput_sim hl h0 hw hi hj x T).bind (l := 0) fun tmp => ?_) rfl
  refine SimT.bind (k := 0) (l := 0) (SimT.lift _) fun b => ?_
  refine SimT.bind (k := 0) (l := 0) (SimT.lift _) fun b => ?_
  refine SimT.bind (k := 0) (l := 0) (SimT.lift _) fun b => ?_
  split
  · refine SimT.bind (k := 0) (l := 0) (SimT.lift _) fun b => ?_
    refine SimT.bind (k := 0) (l := 0) (SimT.lift _) fun b => ?_
    refine SimT.bind (k := 0) (l := 0) (SimT.lift _) fun b => ?_
    exact SimT.pure _
  · refine SimT.bind (k := 0) (l := 0) (SimT.lift _) fun b => ?_
    refine SimT.bind (k := 0) (l := 0) (SimT.lift _) fun b => ?_
    exact SimT.pure _

/-- The matrices left behind by `fillBoxes` in round `i`. -/
def lostBoxes (i : Nat) : Nat := 16 * (256 * 2 + 256 * (1 + if 0 < i ∧ i < 9 then 1 else 0))

theorem fillBoxes_sim (hl : lib.Ok) (h0 : s0.Ok) {wl : Lib} (hw : LibOk wl) (env : Env) (T : Tables) (ek : Vector (BitVec 8) 176) :
    SimT (Inv s0 m w v) (Inv s0 m w v) 155648 (fillBoxes lib env m T ek) (WB.aes.fillBoxes env wl w T ek) := by
  rw [fillBoxes, WB.aes.fillBoxes]
  refine (SimT.forUp (K := lostBoxes) ?_ (T, ek)).cast (by decide)
  rintro i hi ⟨T, ek⟩
  refine SimT.cast (SimT.bind (k := 0) (SimT.lift _) fun ek => SimT.bind (k := lostBoxes i) (l := 0) ?_ fun T => SimT.pure _)
    (Nat.zero_add _)
  refine (SimT.forUp (K := fun _ => 256 * 2 + 256 * (1 + if 0 < i ∧ i < 9 then 1 else 0)) ?_ T).cast (sum_const _ _)
  intro j hj T
  refine SimT.bind ((SimT.forUp (K := fun _ => 2) ?_ T.mixBijIn).cast (sum_const _ _)) fun t => ?_
  · intro x _ t
    exact bijInEntry_sim hl h0 hw hi hj x t
  · refine (SimT.forUp (K := fun _ => 1 + if 0 < i ∧ i < 9 then 1 else 0) ?_ _).cast (sum_const _ _)
    intro x _ T
    exact fillBox_sim hl h0 hw hi hj x ek T

/-! ## The mixing bijections -/

theorem fillBijIn_sim (hl : lib.Ok) (h0 : s0.Ok) {wl : Lib} (hw : LibOk wl) {i j : Nat} (hi : i < 10) (hj : j < 4)
    (t : Vector (Vector (Vector (BitVec 32) 256) 16) 10) :
    SimT (Inv s0 m w v) (Inv s0 m w v) (256 * if i < 9 then 5 else 0) (fillBijIn lib m i j t) (WB.aes.fillBijIn wl w i j t) := by
  rw [fillBijIn, WB.aes.fillBijIn]
  refine (SimT.forUp (K := fun _ => if i < 9 then 5 else 0) ?_ t).cast (sum_const _ _)
  intro x _ t
  refine SimT.ite ?_ fun _ => SimT.pure t
  intro c
  refine (newXX_sim h0 x (l := 4) fun xx => ?_).cast rfl
  refine (mulX_sim (l := 3) (k := 4 * j + 0) (c := 0) hl h0 hw hi (by omega) (by omega) fun r => ?_).cast rfl
  refine SimT.bind (k := 0) (l := 3) (SimT.lift _) fun t => ?_
  refine (mulX_sim (l := 2) (k := 4 * j + 1) (c := 0) hl h0 hw hi (by omega) (by omega) fun r => ?_).cast rfl
  refine SimT.bind (k := 0) (l := 2) (SimT.lift _) fun t => ?_
  refine (mulX_sim (l := 1) (k := 4 * j + 2) (c := 0) hl h0 hw hi (by omega) (by omega) fun r => ?_).cast rfl
  refine SimT.bind (k := 0) (l := 1) (SimT.lift _) fun t => ?_
  refine (mulX_sim (l := 0) (k := 4 * j + 3) (c := 0) hl h0 hw hi (by omega) (by omega) fun r => ?_).cast rfl
  refine SimT.bind (k := 0) (l := 0) (SimT.lift _) fun t => ?_
  refine SimT.bind (k := 0) (l := 0) (SimT.lift _) fun t => ?_
  refine SimT.bind (k := 0) (l := 0) (SimT.lift _) fun t => ?_
  refine SimT.bind (k := 0) (l := 0) (SimT.lift _) fun t => ?_
  exact (SimT.lift _).mono fun _ _ h => h.1

/-- The vectors by number. -/
def Vecs.ptr (v : Vecs) : Fin 4 → Nat := ![v.AA, v.BB, v.CC, v.DD]

theorem Vecs.ptr_mem (v : Vecs) (q : Fin 4) : v.ptr q ∈ v.set := by
  unfold Vecs.ptr Vecs.set
  fin_cases q <;> simp

theorem Vecs.Distinct.inj (hv : v.Distinct) {p q : Fin 4} (h : v.ptr p = v.ptr q) : p = q := by
  have := hv.ab; have := hv.ac; have := hv.ad; have := hv.bc; have := hv.bd; have := hv.cd
  revert h
  unfold Vecs.ptr
  fin_cases p <;> fin_cases q <;> simp [*] <;> (intro h; simp_all)

/-- The invariant together with contents of the vectors. -/
def InvV (s0 : Heap) (m : Mixing) (w : WB.aes.Mixing) (v : Vecs) (o : Fin 4 → Option (BitVec 32)) (n : Nat) (s : Heap) : Prop :=
  Inv s0 m w v n s ∧ ∀ q x, o q = some x → Points s (v.ptr q) (colVec 32 x)

theorem init_sim (hv : v.Distinct) (q : Fin 4) (y : BitVec 64) (x : BitVec 32) (hy : colVec 32 y = colVec 32 x)
    (o : Fin 4 → Option (BitVec 32)) :
    SimT (InvV s0 m w v o) (InvV s0 m w v (Function.update o q (some x))) 0 (InitVecFromBit y (v.ptr q)) (pure ()) := by
  intro n s _ hJ _
  obtain ⟨hp0, V, hV⟩ := hJ.1.base.vec _ (v.ptr_mem q)
  refine (init_run hJ.1.base.ext hV hp0 y).mono ?_
  rintro _ s1 ⟨e1, p1, f1⟩
  have keep : ∀ {p r c : Nat} {A : Matrix (Fin r) (Fin c) (ZMod 2)}, p ≠ v.ptr q → Points s p A → Points s1 p A := by
    rintro p r c A hne ⟨a, ha, hA⟩
    exact ⟨a, f1 _ _ hne ha, hA⟩
  have out : ∀ {p : Nat}, p ∉ v.set → p ≠ v.ptr q := by
    rintro p h rfl
    exact h (v.ptr_mem q)
  refine ⟨rfl, ⟨⟨e1, ?_⟩, ⟨?_, ?_⟩⟩, ?_⟩
  · intro p hp
    refine ⟨(hJ.1.base.vec p hp).1, ?_⟩
    by_cases c : p = v.ptr q
    · rw [c]; exact ⟨_, p1⟩
    · obtain ⟨W, hW⟩ := (hJ.1.base.vec p hp).2
      exact ⟨W, keep c hW⟩
  · intro i k c h1 h2 h3
    obtain ⟨ha, hb⟩ := hJ.1.bound.b8 i k c h1 h2 h3
    exact ⟨keep (out hb) ha, hb⟩
  · intro i k c h1 h2 h3
    obtain ⟨ha, hb⟩ := hJ.1.bound.b32 i k c h1 h2 h3
    exact ⟨keep (out hb) ha, hb⟩
  · intro r z hz
    by_cases c : r = q
    · subst c
      rw [Function.update_self] at hz
      cases hz
      rw [← hy]; exact p1
    · rw [Function.update_of_ne c] at hz
      exact keep (fun e => c (hv.inj e)) (hJ.2 r z hz)

theorem InvV.grow {o : Fin 4 → Option (BitVec 32)} {n n' : Nat} (h : InvV s0 m w v o n s) (he : Ext n' s0 ∅ s' ∅)
    (hs : Stays s s') : InvV s0 m w v o n' s' := ⟨h.1.grow he hs, fun q x hx => hs.points (h.2 q x hx)⟩

/-- The product of a `32×32` matrix with one of the vectors. -/
theorem mulV_sim (hl : lib.Ok) (h0 : s0.Ok) {wl : Lib} (hw : LibOk wl) {o : Fin 4 → Option (BitVec 32)} (q : Fin 4) {x : BitVec 32}
    (ho : o q = some x) {i k c : Nat} (hi : i < 10) (hk : k < 4) (hc : c < 2) {f : BitVec 32 → MM β} {g : BitVec 32 → WB.C β}
    (h : ∀ r, SimT (InvV s0 m w v o) J'' l (f r) (g r)) :
    SimT (InvV s0 m w v o) J'' (1 + l) (liftC (rd3 m.mb_32x32 i k c) >>= fun a => mulDigital lib a (v.ptr q) >>= f)
      (rd3 w.mb_32x32 i k c >>= fun A => wl.MatMulNumM32 A x >>= g) := by
  rw [rd3_get m.mb_32x32 hi hk hc, rd3_get w.mb_32x32 hi hk hc]
  intro n s b hJ e
  refine Run.step (liftC_run _ rfl) ?_
  have e : (wl.MatMulNumM32 (((w.mb_32x32[i]!)[k]!)[c]!) x >>= g) = .ok b := e
  rw [hw.u32] at e
  refine Run.bind (mulDigital_run hl h0 hJ.1.base.ext (by omega) (hJ.1.bound.b32 i k c hi hk hc).1 (hJ.2 q x ho)) ?_
  rintro _ s1 ⟨rfl, e1, hst⟩
  rw [← Nat.add_assoc, BitVec.setWidth_eq]
  exact h _ _ _ _ (hJ.grow e1 hst) e

/-- The same with `get32FromVec`. -/
theorem mulV32_sim (hl : lib.Ok) (h0 : s0.Ok) {wl : Lib} (hw : LibOk wl) {o : Fin 4 → Option (BitVec 32)} (q : Fin 4) {x : BitVec 32}
    (ho : o q = some x) {i k c : Nat} (hi : i < 10) (hk : k < 4) (hc : c < 2) {f : BitVec 32 → MM β} {g : BitVec 32 → WB.C β}
    (h : ∀ r, SimT (InvV s0 m w v o) J'' l (f r) (g r)) :
    SimT (InvV s0 m w v o) J'' (1 + l) (liftC (rd3 m.mb_32x32 i k c) >>= fun a => mul32 lib a (v.ptr q) >>= f)
      (rd3 w.mb_32x32 i k c >>= fun A => wl.MatMulNumM32 A x >>= g) := by
  rw [rd3_get m.mb_32x32 hi hk hc, rd3_get w.mb_32x32 hi hk hc]
  intro n s b hJ e
  refine Run.step (liftC_run _ rfl) ?_
  have e : (wl.MatMulNumM32 (((w.mb_32x32[i]!)[k]!)[c]!) x >>= g) = .ok b := e
  rw [hw.u32] at e
  refine Run.bind (mul32_run hl h0 hJ.1.base.ext (hJ.1.bound.b32 i k c hi hk hc).1 (hJ.2 q x ho)) ?_
  rintro _ s1 ⟨rfl, e1, hst⟩
  rw [← Nat.add_assoc]
  exact h _ _ _ _ (hJ.grow e1 hst) e

theorem initShifted_sim (hv : v.Distinct) (q : Fin 4) (x k : Nat) (o : Fin 4 → Option (BitVec 32)) :
    SimT (InvV s0 m w v o) (InvV s0 m w v (Function.update o q (some (BitVec.ofNat 32 x <<< k)))) 0
      (initShifted false x k (v.ptr q)) (pure ()) := by
  rw [initShifted, shlInt_false]
  intro n s a hJ e
  refine Run.step (liftC_run _ rfl) ?_
  exact init_sim hv q _ _ (colVec_signExtend _ (by omega) (by omega)) o n s a hJ e

theorem mixBox_sim (hl : lib.Ok) (h0 : s0.Ok) {wl : Lib} (hw : LibOk wl) (hv : v.Distinct) {i j : Nat} (hi : i < 10) (hj : j < 4)
    (x : Nat) (T : Tables) : SimT (Inv s0 m w v) (Inv s0 m w v) (if i < 9 then 8 else 0) (mixBox lib false m v i j x T)
      (WB.aes.mixBox wl w i j x T) := by
  rw [mixBox, WB.aes.mixBox]
  refine SimT.ite ?_ fun _ => SimT.pure T
  intro c
  refine SimT.pre (J' := InvV s0 m w v fun _ => none) ?_ fun n s h => ⟨h, by intro _ _ h; cases h⟩
  refine SimT.bind (k := 0) (l := 8) (SimT.lift _) fun a => ?_
  refine SimT.left (k := 0) (l := 8) (init_sim hv 0 _ a (colVec_setWidth _ (by omega)) _) ?_
  refine SimT.bind (k := 0) (l := 8) (SimT.lift _) fun b => ?_
  refine SimT.left (k := 0) (l := 8) (init_sim hv 1 _ b (colVec_setWidth _ (by omega)) _) ?_
  refine SimT.bind (k := 0) (l := 8) (SimT.lift _) fun c => ?_
  refine SimT.left (k := 0) (l := 8) (init_sim hv 2 _ c (colVec_setWidth _ (by omega)) _) ?_
  refine SimT.bind (k := 0) (l := 8) (SimT.lift _) fun d => ?_
  refine SimT.left (k := 0) (l := 8) (init_sim hv 3 _ d (colVec_setWidth _ (by omega)) _) ?_
  refine (mulV_sim (l := 7) hl h0 hw 0 (by simp [Function.update]) hi hj (by omega) fun r => ?_).cast rfl
  refine SimT.bind (k := 0) (l := 7) (SimT.lift _) fun t => ?_
  refine (mulV_sim (l := 6) hl h0 hw 1 (by simp [Function.update]) hi hj (by omega) fun r => ?_).cast rfl
  refine SimT.bind (k := 0) (l := 6) (SimT.lift _) fun t => ?_
  refine (mulV_sim (l := 5) hl h0 hw 2 (by simp [Function.update]) hi hj (by omega) fun r => ?_).cast rfl
  refine SimT.bind (k := 0) (l := 5) (SimT.lift _) fun t => ?_
  refine (mulV_sim (l := 4) hl h0 hw 3 (by simp [Function.update]) hi hj (by omega) fun r => ?_).cast rfl
  refine SimT.bind (k := 0) (l := 4) (SimT.lift _) fun t => ?_
  refine SimT.left (k := 0) (l := 4) (initShifted_sim hv 0 x 24 _) ?_
  refine SimT.left (k := 0) (l := 4) (initShifted_sim hv 1 x 16 _) ?_
  refine SimT.left (k := 0) (l := 4) (initShifted_sim hv 2 x 8 _) ?_
  refine SimT.left (k := 0) (l := 4) (initShifted_sim hv 3 x 0 _) ?_
  refine (mulV32_sim (l := 3) hl h0 hw 0 (by simp [Function.update]) hi hj (by omega) fun aa => ?_).cast rfl
  refine (mulV32_sim (l := 2) hl h0 hw 1 (by simp [Function.update]) hi hj (by omega) fun bb => ?_).cast rfl
  refine (mulV32_sim (l := 1) hl h0 hw 2 (by simp [Function.update]) hi hj (by omega) fun cc => ?_).cast rfl
  refine (mulV32_sim (l := 0) hl h0 hw 3 (by simp [Function.update]) hi hj (by omega) fun dd => ?_).cast rfl
  refine SimT.bind (k := 0) (l := 0) (SimT.lift _) fun r => ?_
  refine SimT.bind (k := 0) (l := 0) (SimT.lift _) fun u => ?_
  refine SimT.bind (k := 0) (l := 0) (SimT.lift _) fun r => ?_
  refine SimT.bind (k := 0) (l := 0) (SimT.lift _) fun u => ?_
  refine SimT.bind (k := 0) (l := 0) (SimT.lift _) fun r => ?_
  refine SimT.bind (k := 0) (l := 0) (SimT.lift _) fun u => ?_
  refine SimT.bind (k := 0) (l := 0) (SimT.lift _) fun r => ?_
  refine SimT.bind (k := 0) (l := 0) (SimT.lift _) fun u => ?_
  exact (SimT.pure _).mono fun _ _ h => h.1

/-- The matrices left behind by `mixBoxes` in round `i`. -/
def lostMix (i : Nat) : Nat := 4 * (256 * (if i < 9 then 5 else 0) + 256 * (if i < 9 then 8 else 0))

theorem mixBoxes_sim (hl : lib.Ok) (h0 : s0.Ok) {wl : Lib} (hw : LibOk wl) (hv : v.Distinct) (T : Tables) :
    SimT (Inv s0 m w v) (Inv s0 m w v) 119808 (mixBoxes lib false m v T) (WB.aes.mixBoxes wl w T) := by
  rw [mixBoxes, WB.aes.mixBoxes]
  refine (SimT.forUp (K := lostMix) ?_ T).cast (by decide)
  intro i hi T
  refine (SimT.forUp (K := fun _ => 256 * (if i < 9 then 5 else 0) + 256 * (if i < 9 then 8 else 0)) ?_ T).cast (sum_const _ _)
  intro j hj T
  refine SimT.bind (fillBijIn_sim hl h0 hw hi hj _) fun t => ?_
  refine (SimT.forUp (K := fun _ => if i < 9 then 8 else 0) ?_ _).cast (sum_const _ _)
  intro x _ T
  exact mixBox_sim hl h0 hw hv hi hj x T

/-! ## The whole function -/

theorem Made.pair8 (h : Made s0 v m 200 s) {i k : Nat} (hi : i < 10) (hk : k < 16) :
    ∃ A : Matrix (Fin 8) (Fin 8) (ZMod 2), IsUnit A ∧ Points s (((m.mb_8x8[i]!)[k]!)[0]!) A ∧
      Points s (((m.mb_8x8[i]!)[k]!)[1]!) A⁻¹ := by
  have h1 := h.pair (20 * i + 4 + k) (by omega)
  rw [Q8 m 0 i k hk, Q8 m 1 i k hk] at h1
  have e : size (20 * i + 4 + k) = 8 := by
    unfold size
    rw [if_neg (by omega)]
  rw [e] at h1
  exact h1

theorem Made.pair32 (h : Made s0 v m 200 s) {i k : Nat} (hi : i < 10) (hk : k < 4) :
    ∃ A : Matrix (Fin 32) (Fin 32) (ZMod 2), IsUnit A ∧ Points s (((m.mb_32x32[i]!)[k]!)[0]!) A ∧
      Points s (((m.mb_32x32[i]!)[k]!)[1]!) A⁻¹ := by
  have h1 := h.pair (20 * i + k) (by omega)
  rw [Q32 m 0 i k hk, Q32 m 1 i k hk] at h1
  have e : size (20 * i + k) = 32 := by
    unfold size
    rw [if_pos (by omega)]
  rw [e] at h1
  exact h1

/-- The rows of a matrix. -/
noncomputable def rows {n : Nat} (A : Matrix (Fin n) (Fin n) (ZMod 2)) : Vector (BitVec n) n := Vector.ofFn fun i => unvec (A i)

theorem mat_rows {n : Nat} (A : Matrix (Fin n) (Fin n) (ZMod 2)) : matOf n (bitS n) (rows A) = A := mat_ofFn A

theorem lin_rows {n : Nat} {A B : Matrix (Fin n) (Fin n) (ZMod 2)} (h : A * B = 1) (x : BitVec n) :
    lin (rows A) (lin (rows B) x) = x := lin_inv (by rw [mat_rows, mat_rows, h]) x

theorem ofFn_get {n : Nat} [Inhabited α] (f : Fin n → α) {i : Nat} (hi : i < n) : (Vector.ofFn f)[i]! = f ⟨i, hi⟩ := by
  rw [getElem!_pos (Vector.ofFn f) i hi, Vector.getElem_ofFn]

/-- The matrices that the pointers stand for. -/
theorem Made.inv (h : Made s0 v m 200 s) : ∃ w, MixOk w ∧ Inv s0 m w v 404 s := by
  have c8 : ∀ i k, ∃ A : Matrix (Fin 8) (Fin 8) (ZMod 2), i < 10 → k < 16 → IsUnit A ∧
      Points s (((m.mb_8x8[i]!)[k]!)[0]!) A ∧ Points s (((m.mb_8x8[i]!)[k]!)[1]!) A⁻¹ := by
    intro i k
    by_cases c : i < 10 ∧ k < 16
    · obtain ⟨A, hA⟩ := h.pair8 c.1 c.2
      exact ⟨A, fun _ _ => hA⟩
    · exact ⟨0, fun h1 h2 => absurd ⟨h1, h2⟩ c⟩
  have c32 : ∀ i k, ∃ A : Matrix (Fin 32) (Fin 32) (ZMod 2), i < 10 → k < 4 → IsUnit A ∧
      Points s (((m.mb_32x32[i]!)[k]!)[0]!) A ∧ Points s (((m.mb_32x32[i]!)[k]!)[1]!) A⁻¹ := by
    intro i k
    by_cases c : i < 10 ∧ k < 4
    · obtain ⟨A, hA⟩ := h.pair32 c.1 c.2
      exact ⟨A, fun _ _ => hA⟩
    · exact ⟨0, fun h1 h2 => absurd ⟨h1, h2⟩ c⟩
  choose A hA using c8
  choose B hB using c32
  let w : WB.aes.Mixing := ⟨Vector.ofFn fun i => Vector.ofFn fun k => #v[rows (A i k), rows (A i k)⁻¹],
    Vector.ofFn fun i => Vector.ofFn fun k => #v[rows (B i k), rows (B i k)⁻¹]⟩
  have w8 : ∀ i k, i < 10 → k < 16 → (w.mb_8x8[i]!)[k]! = #v[rows (A i k), rows (A i k)⁻¹] := by
    intro i k hi hk
    show ((Vector.ofFn fun i : Fin 10 => Vector.ofFn fun k : Fin 16 => #v[rows (A i k), rows (A i k)⁻¹])[i]!)[k]! = _
    rw [ofFn_get _ hi, ofFn_get _ hk]
  have w32 : ∀ i k, i < 10 → k < 4 → (w.mb_32x32[i]!)[k]! = #v[rows (B i k), rows (B i k)⁻¹] := by
    intro i k hi hk
    show ((Vector.ofFn fun i : Fin 10 => Vector.ofFn fun k : Fin 4 => #v[rows (B i k), rows (B i k)⁻¹])[i]!)[k]! = _
    rw [ofFn_get _ hi, ofFn_get _ hk]
  refine ⟨w, ⟨?_, ?_⟩, h.base, ⟨?_, ?_⟩⟩
  · intro i k hi hk x
    rw [w32 i k hi hk]
    exact lin_rows (Matrix.nonsing_inv_mul _ ((Matrix.isUnit_iff_isUnit_det _).1 (hB i k hi hk).1)) x
  · intro i k hi hk x
    rw [w8 i k hi hk]
    exact lin_rows (Matrix.mul_nonsing_inv _ ((Matrix.isUnit_iff_isUnit_det _).1 (hA i k hi hk).1)) x
  · intro i k c hi hk hc
    rw [w8 i k hi hk]
    refine ⟨?_, ?_⟩
    · obtain rfl | rfl : c = 0 ∨ c = 1 := by omega
      · show Points s _ (mat8 (rows (A i k)))
        rw [mat8, mat_rows]; exact (hA i k hi hk).2.1
      · show Points s _ (mat8 (rows (A i k)⁻¹))
        rw [mat8, mat_rows]; exact (hA i k hi hk).2.2
    · rw [← Q8 m c i k hk]
      exact (h.new _ c (by omega) hc).2
  · intro i k c hi hk hc
    rw [w32 i k hi hk]
    refine ⟨?_, ?_⟩
    · obtain rfl | rfl : c = 0 ∨ c = 1 := by omega
      · show Points s _ (mat32 (rows (B i k)))
        rw [mat32, mat_rows]; exact (hB i k hi hk).2.1
      · show Points s _ (mat32 (rows (B i k)⁻¹))
        rw [mat32, mat_rows]; exact (hB i k hi hk).2.2
    · rw [← Q32 m c i k hk]
      exact (h.new _ c (by omega) hc).2

/-- Freeing another matrix. -/
theorem Left.other {n : Nat} {D : Nat → Nat → Prop} (h : Left s0 m (n + 1) D s) {p : Nat} {a : Mzd} (hp : s.obj p = some a)
    (hp0 : s0.obj p = none) (hQ : ∀ a c, a < 200 → c < 2 → Q m c a ≠ p) :
    MatGf2Free p s = .ok ((), setObj s p none) ∧ Left s0 m n D (setObj s p none) := by
  refine ⟨free_run h.ext.own.ok hp, h.ext.drop hp0 hp (by simp), ?_, h.new, h.inj⟩
  intro a c ha hc hD
  rw [setObj_ne _ _ (hQ a c ha hc)]
  exact h.live a c ha hc hD

theorem freeAll_run {n : Nat} (hv : v.Distinct) (hm : ∀ a c, a < 200 → c < 2 → s0.obj (Q m c a) = none ∧ Q m c a ∉ v.set)
    (hinj : ∀ a b c d, a < 200 → b < 200 → c < 2 → d < 2 → Q m c a = Q m d b → a = b ∧ c = d)
    (h : Inv s0 m w v (n + 404) s) : Run (freeAll m v) s fun _ s' => Ext n s0 ∅ s' ∅ := by
  have hl : Left s0 m (n + 400 + 3 + 1) (fun _ _ => False) s := by
    refine ⟨h.base.ext, ?_, fun a c ha hc => (hm a c ha hc).1, hinj⟩
    intro a c ha hc _
    unfold Q
    split
    · obtain ⟨⟨x, hx, -⟩, -⟩ := h.bound.b32 (a / 20) (a % 20) c (by omega) (by omega) hc
      exact ⟨x, hx⟩
    · obtain ⟨⟨x, hx, -⟩, -⟩ := h.bound.b8 (a / 20) (a % 20 - 4) c (by omega) (by omega) hc
      exact ⟨x, hx⟩
  have hne : ∀ p ∈ v.set, ∀ a c, a < 200 → c < 2 → Q m c a ≠ p := fun p hp a c ha hc e => (hm a c ha hc).2 (e ▸ hp)
  obtain ⟨a0, -, a, ha, -⟩ := h.base.vec v.AA (by simp [Vecs.set])
  obtain ⟨b0, -, b, hb, -⟩ := h.base.vec v.BB (by simp [Vecs.set])
  obtain ⟨c0, -, c, hc, -⟩ := h.base.vec v.CC (by simp [Vecs.set])
  obtain ⟨d0, -, d, hd, -⟩ := h.base.vec v.DD (by simp [Vecs.set])
  rw [freeAll]
  obtain ⟨e1, h1⟩ := hl.other ha a0 (hne _ (by simp [Vecs.set]))
  refine Run.step e1 ?_
  have hb : (setObj s v.AA none).obj v.BB = some b := by rw [setObj_ne _ _ hv.ab.symm]; exact hb
  have hc : (setObj s v.AA none).obj v.CC = some c := by rw [setObj_ne _ _ hv.ac.symm]; exact hc
  have hd : (setObj s v.AA none).obj v.DD = some d := by rw [setObj_ne _ _ hv.ad.symm]; exact hd
  obtain ⟨e2, h2⟩ := Left.other h1 hb b0 (hne _ (by simp [Vecs.set]))
  refine Run.step e2 ?_
  have hc : (setObj (setObj s v.AA none) v.BB none).obj v.CC = some c := by rw [setObj_ne _ _ hv.bc.symm]; exact hc
  have hd : (setObj (setObj s v.AA none) v.BB none).obj v.DD = some d := by rw [setObj_ne _ _ hv.bd.symm]; exact hd
  obtain ⟨e3, h3⟩ := Left.other h2 hc c0 (hne _ (by simp [Vecs.set]))
  refine Run.step e3 ?_
  have hd : (setObj (setObj (setObj s v.AA none) v.BB none) v.CC none).obj v.DD = some d := by
    rw [setObj_ne _ _ hv.cd.symm]; exact hd
  obtain ⟨e4, h4⟩ := Left.other (n := n + 400) h3 hd d0 (hne _ (by simp [Vecs.set]))
  refine Run.step e4 ?_
  exact freeMixing_run h4

/-- The four vectors. -/
theorem vecs_run (h0 : s0.Ok) {f : Nat → Nat → Nat → Nat → MM α} {P : α → Heap → Prop} {D : Prop}
    (hf : ∀ v s, Vecs.Distinct v → Base s0 v 4 s → RunD D (f v.AA v.BB v.CC v.DD) s P) :
    RunD D (do
      let AA ← GenMatGf2 32 1
      let BB ← GenMatGf2 32 1
      let CC ← GenMatGf2 32 1
      let DD ← GenMatGf2 32 1
      f AA BB CC DD : MM α) s0 P := by
  have st : ∀ {s s' : Heap} {n : Nat}, Ext n s0 ∅ s ∅ → Frame 0 s s' → Stays s s' :=
    fun he hf q m hm => hf q m (he.own.ok.ne_zero hm) hm
  have ne : ∀ {s : Heap} {p q : Nat} {V : Matrix (Fin 32) (Fin 1) (ZMod 2)}, Points s p V → s.obj q = none → p ≠ q := by
    rintro s p q V ⟨a, ha, -⟩ hq rfl
    rw [hq] at ha; cases ha
  have e0 : Ext 0 s0 ∅ s0 ∅ := Ext.refl (Own.empty h0)
  refine RunD.bind (.inr ((zero_new s0 32 1).more h0 e0)) ?_
  rintro a s1 ⟨e1, pa, a0, -, f1, na⟩
  refine RunD.bind (.inr ((zero_new s1 32 1).more h0 e1)) ?_
  rintro b s2 ⟨e2, pb, b0, -, f2, nb⟩
  refine RunD.bind (.inr ((zero_new s2 32 1).more h0 e2)) ?_
  rintro c s3 ⟨e3, pc, c0, -, f3, nc⟩
  refine RunD.bind (.inr ((zero_new s3 32 1).more h0 e3)) ?_
  rintro d s4 ⟨e4, pd, d0, -, f4, nd⟩
  have t2 := st e1 f2
  have t3 := st e2 f3
  have t4 := st e3 f4
  refine hf ⟨a, b, c, d⟩ s4 ⟨ne pa nb, ne (t2.points pa) nc, ne (t3.points (t2.points pa)) nd, ne pb nc, ne (t3.points pb) nd,
    ne pc nd⟩ ⟨e4.cast rfl, ?_⟩
  intro p hp
  simp only [Vecs.set, Finset.mem_insert, Finset.mem_singleton] at hp
  rcases hp with rfl | rfl | rfl | rfl
  · exact ⟨a0, _, t4.points (t3.points (t2.points pa))⟩
  · exact ⟨b0, _, t4.points (t3.points pb)⟩
  · exact ⟨c0, _, t4.points pc⟩
  · exact ⟨d0, _, pd⟩

theorem computeTables_run (hl : lib.Ok) (fuel : Nat) (env : Env) (h0 : s0.Ok) (k : Nat → AES.State) (T : Tables)
    (ek : Vector (BitVec 8) 176) (hk : KeyOk k ek) :
    RunD (¬ (Lucky lib 8 fuel ∧ Lucky lib 32 fuel)) (computeTables lib false fuel env T ek) s0 fun p s' =>
      ((∃ M N, TablesOk k M N p.1) ∧ KeyOkN k 10 p.2) ∧ Ext 275456 s0 ∅ s' ∅ := by
  have hw := libOk_current env
  obtain ⟨t, et, ht⟩ := fillTyi_ok T.TyiTables
  rw [computeTables]
  refine RunD.step (liftC_run _ et) ?_
  refine vecs_run h0 fun v s hv hb => ?_
  have hmade : Made s0 v (Mixing.junk env) 0 s :=
    ⟨hb, fun a ha => absurd ha (by omega), fun a _ ha => absurd ha (by omega), fun a _ _ _ ha => absurd ha (by omega)⟩
  refine RunD.bind (genMixing_run hl fuel h0 hmade) ?_
  intro m s1 hm
  obtain ⟨w, hmix, hinv⟩ := hm.inv
  obtain ⟨⟨T1, ek1⟩, e1, hty, hek, hg⟩ := fillBoxes_ok env hw hmix k ek hk { T with TyiTables := t } ht
  refine RunD.bind (.inr (fillBoxes_sim hl h0 hw env _ ek _ _ _ hinv e1)) ?_
  rintro _ s2 ⟨rfl, hinv2⟩
  simp only at hty hek hg ⊢
  obtain ⟨T2, e2, h2⟩ := mixBoxes_ok hw w k T1 ⟨hty, fun a b c ha hb hc => (hg a b c ha hb hc).1, fun p q r hp hq hr => by
    rw [if_neg (fun h => h)]
    exact (hg p q r (by omega) hq hr).2 hp, fun _ _ _ _ _ _ h => h.elim⟩
  refine RunD.bind (.inr (mixBoxes_sim hl h0 hw hv _ _ _ _ hinv2 e2)) ?_
  rintro T2 s3 ⟨rfl, hinv3⟩
  obtain ⟨xt, ex, hx⟩ := fillXor_ok T2.xorTable
  refine RunD.step (liftC_run _ ex) ?_
  refine RunD.bind (.inr (freeAll_run (n := 275456) hv hm.new hm.inj (w := w) ?_)) ?_
  · have : 404 + 155648 + 119808 = 275456 + 404 := rfl
    rw [← this]; exact hinv3
  · intro _ s4 h4
    refine .inr (Run.pure ⟨⟨⟨fun p q => ((w.mb_32x32[p]!)[q]!)[0]!, fun p q => ((w.mb_32x32[p]!)[q]!)[1]!, h2.tyi, h2.box,
      ?_, ?_, ?_, hx⟩, hek⟩, h4⟩)
    · intro p q r hp hq hr
      have := h2.boxes p q r hp hq hr
      rwa [if_pos trivial] at this
    · intro p q r hp hq hr
      exact h2.out p q r hp hq hr trivial
    · intro p q x hp hq
      exact hmix.m32 p q (by omega) hq x

/-- `n` calls of `computeTables`. -/
theorem loop_run (hl : lib.Ok) (fuel : Nat) (env : Env) (h0 : s0.Ok) (k : Nat → AES.State) (T : Tables)
    (ek : Vector (BitVec 8) 176) (hk : KeyOk k ek) (n : Nat) :
    RunD (¬ (Lucky lib 8 fuel ∧ Lucky lib 32 fuel))
      (WB.forUp 0 n (T, ek) fun _ (T, ek) => computeTables lib false fuel env T ek) s0 fun p s' =>
      (KeyOk (keySeq k n) p.2 ∧ ∀ m, n = m + 1 → ∃ M N, TablesOk (keySeq k m) M N p.1) ∧ Ext (275456 * n) s0 ∅ s' ∅ := by
  refine RunD.forUp (fun n p s' => (KeyOk (keySeq k n) p.2 ∧ ∀ m, n = m + 1 → ∃ M N, TablesOk (keySeq k m) M N p.1) ∧
    Ext (275456 * n) s0 ∅ s' ∅) (by omega) ⟨⟨?_, by omega⟩, Ext.refl (Own.empty h0)⟩ ?_ (fun p w h => h)
  · intro r hr
    rw [hk r hr]
    unfold keySeq
    split <;> rfl
  · rintro i ⟨T, ek⟩ s - - ⟨⟨h, -⟩, hext⟩
    refine (computeTables_run hl fuel env hext.own.ok (keySeq k i) T ek h).mono ?_
    rintro ⟨T', ek'⟩ s' ⟨⟨ht, hk'⟩, he⟩
    refine ⟨⟨?_, ?_⟩, (hext.trans he).cast (by omega)⟩
    · intro r hr
      rw [hk' r hr]
      unfold keySeq
      by_cases c : r < 10
      · rw [if_pos c, if_pos c, if_pos c]; rfl
      · rw [if_neg c, if_neg c, if_neg c]
    · rintro m hm
      obtain rfl : i = m := by omega
      exact ht

end WB.m4ri.aes
