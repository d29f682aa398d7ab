import Verif.Model.AffineM4ri
import Verif.Proof.MatGf2Own
import Verif.Prop.C65

/-!
# Affine transforms on top of M4RI (helper lemmas)
-/
namespace WB.m4ri

variable {lib : M4ri} {s s' s'' : Heap} {T T' : Finset Nat} {k : Nat}

/-- `x` runs without fault, and result and state satisfy `P`; only if `D` holds it may, instead, not return. -/
def RunD {α : Type} (D : Prop) (x : MM α) (s : Heap) (P : α → Heap → Prop) : Prop :=
  (D ∧ x s = .error (.c .diverge)) ∨ Run x s P

namespace RunD
variable {α β : Type} {D : Prop}

theorem of_run {x : MM α} {P : α → Heap → Prop} (h : Run x s P) : RunD D x s P := .inr h

theorem bind {x : MM α} {f : α → MM β} {P : α → Heap → Prop} {Q : β → Heap → Prop}
    (h : RunD D x s P) (hf : ∀ a s', P a s' → RunD D (f a) s' Q) : RunD D (x >>= f) s Q := by
  rcases h with ⟨d, e⟩ | ⟨a, s', e, hp⟩
  · exact .inl ⟨d, MM_bind_err e⟩
  · rcases hf a s' hp with ⟨d, e'⟩ | ⟨b, s'', e', hq⟩
    · exact .inl ⟨d, by rw [MM_bind e, e']⟩
    · exact .inr ⟨b, s'', by rw [MM_bind e, e'], hq⟩

theorem step {x : MM α} {f : α → MM β} {a : α} {Q : β → Heap → Prop} (e : x s = .ok (a, s'))
    (h : RunD D (f a) s' Q) : RunD D (x >>= f) s Q := by
  rcases h with ⟨d, e'⟩ | ⟨b, s'', e', hq⟩
  · exact .inl ⟨d, by rw [MM_bind e, e']⟩
  · exact .inr ⟨b, s'', by rw [MM_bind e, e'], hq⟩

theorem mono {x : MM α} {P Q : α → Heap → Prop} (h : RunD D x s P) (hpq : ∀ a s', P a s' → Q a s') : RunD D x s Q := by
  rcases h with h | h
  · exact .inl h
  · exact .inr (h.mono hpq)

theorem weaken {D' : Prop} {x : MM α} {P : α → Heap → Prop} (h : RunD D x s P) (hd : D → D') : RunD D' x s P := by
  rcases h with ⟨d, e⟩ | h
  · exact .inl ⟨hd d, e⟩
  · exact .inr h

theorem foldlM_range' {σ : Type} {f : Nat → σ → MM σ} (P : Nat → σ → Heap → Prop) :
    ∀ (len lo : Nat) (x : σ) (s : Heap), P lo x s →
    (∀ i x s, lo ≤ i → i < lo + len → P i x s → RunD D (f i x) s (P (i + 1))) →
    RunD D ((List.range' lo len).foldlM (fun x i => f i x) x) s (P (lo + len)) := by
  intro len
  induction len with
  | zero => intro lo x s h0 _; exact .inr (Run.pure (by simpa using h0))
  | succ len ih =>
    intro lo x s h0 hs
    simp only [List.range'_succ, List.foldlM_cons]
    refine bind (hs lo x s (Nat.le_refl _) (by omega) h0) ?_
    intro x' s' h'
    have := ih (lo + 1) x' s' h' (fun i x s h1 h2 hp => hs i x s (by omega) (by omega) hp)
    rwa [show lo + (len + 1) = lo + 1 + len by omega]

theorem forUp {σ : Type} {lo hi : Nat} {x : σ} {f : Nat → σ → MM σ} {Q : σ → Heap → Prop}
    (P : Nat → σ → Heap → Prop) (hle : lo ≤ hi) (h0 : P lo x s)
    (hs : ∀ i x s, lo ≤ i → i < hi → P i x s → RunD D (f i x) s (P (i + 1)))
    (hq : ∀ x s, P hi x s → Q x s) : RunD D (WB.forUp lo hi x f) s Q := by
  have := foldlM_range' (D := D) P (hi - lo) lo x s h0 (fun i x s h1 h2 hp => hs i x s h1 (by omega) hp)
  rw [show lo + (hi - lo) = hi by omega] at this
  exact this.mono hq

end RunD

/-! ## Random matrices -/

theorem random_run (hs : s.Ok) {p r c : Nat} {A : Matrix (Fin r) (Fin c) (ZMod 2)} (hc : 0 < c) (hp : Points s p A) :
    ∃ m, RandomMatGf2 lib p s = .ok ((), { setObj s p (some m) with rand := s.rand + 1 }) ∧
      Is m (bitMat r c (lib.rnd s.rand)) := by
  obtain ⟨m, hm, hA⟩ := hp
  refine ⟨{ m with bit := lib.rnd s.rand }, ?_, hA.nrows, hA.ncols, fun _ _ => rfl⟩
  rw [RandomMatGf2, mzd_randomize, MM_bind (deref_run hs hm), if_neg (by rw [hA.ncols]; omega)]
  rfl

/-- The state after `k` matrices have been allocated and `j` addresses and some random bits have been used up. -/
theorem random_more {p r c : Nat} {A : Matrix (Fin r) (Fin c) (ZMod 2)} (hc : 0 < c) (he : Ext k s T s' T')
    (h0 : s.obj p = none) (hp : Points s' p A) (hT : p ∉ T') :
    Run (RandomMatGf2 lib p) s' fun _ s'' => Ext k s T s'' T' ∧ Points s'' p (bitMat r c (lib.rnd s'.rand)) ∧
      Frame p s' s'' ∧ s''.rand = s'.rand + 1 := by
  obtain ⟨m, e, hm⟩ := random_run (lib := lib) he.own.ok hc hp
  obtain ⟨b, hb, -⟩ := hp
  have h1 := he.change h0 hb hT m
  refine Run.of_eq e ⟨(h1.trans (Ext.rand h1.own (s'.rand + 1))).cast rfl, ⟨m, ?_, hm⟩, ?_, rfl⟩
  · exact setObj_self _ _ _
  · intro q a hq ha
    show (setObj s' p (some m)).obj q = some a
    rw [setObj_ne _ _ hq]; exact ha

theorem draw_more {n p : Nat} (hn : 0 < n) : ∀ (fuel j : Nat) (s' : Heap), Ext k s T s' T' → s.obj p = none → p ∉ T' →
    Points s' p (bitMat n n (lib.rnd j)) → s'.rand = j + 1 →
    RunD (¬ ∃ i < fuel, IsUnit (bitMat n n (lib.rnd (j + i)))) (drawInvertible lib p fuel) s' fun _ s'' =>
      Ext k s T s'' T' ∧ (∃ j, IsUnit (bitMat n n (lib.rnd j)) ∧ Points s'' p (bitMat n n (lib.rnd j))) ∧
      Frame p s' s'' := by
  classical
  intro fuel
  induction fuel with
  | zero =>
    intro j s' _ _ _ _ _
    exact .inl ⟨by simp, rfl⟩
  | succ fuel ih =>
    intro j s' he h0 hT hp hr
    have hskip : Ext k s T { s' with next := s'.next + 1 } T' := (he.trans (Ext.skip he.own 1)).cast rfl
    rw [drawInvertible]
    refine RunD.step (isInvertible_run he.own.ok hn hp) ?_
    by_cases hu : IsUnit (bitMat n n (lib.rnd j))
    · rw [if_pos hu, if_neg (by decide)]
      exact .inr (Run.pure ⟨hskip, ⟨j, hu, hp⟩, fun q m _ hm => hm⟩)
    · rw [if_neg hu, if_pos rfl]
      refine RunD.bind (P := fun _ s'' => Ext k s T s'' T' ∧
        Points s'' p (bitMat n n (lib.rnd s'.rand)) ∧ Frame p s' s'' ∧ s''.rand = s'.rand + 1)
        (.inr ((random_more (lib := lib) hn hskip h0 hp hT).mono ?_)) ?_
      · rintro _ s2 ⟨h1, h2, h3, h4⟩
        exact ⟨h1, h2, h3, h4⟩
      · rintro _ s2 ⟨h1, h2, h3, h4⟩
        rw [hr] at h2 h4
        refine ((ih (j + 1) s2 h1 h0 hT h2 h4).weaken ?_).mono ?_
        · rintro hn ⟨i, hi, hui⟩
          apply hn
          rcases i with _ | i
          · exact absurd hui hu
          · exact ⟨i, by omega, by rwa [show j + 1 + i = j + (i + 1) by omega]⟩
        · rintro _ s3 ⟨a, b, c⟩
          exact ⟨a, b, fun q m hq hm => c q m hq (h3 q m hq hm)⟩

/-- The transform `a` consists of the matrix `A` and the column `v`. -/
structure IsAff (s : Heap) (T : Finset Nat) (a : AffineTransform) {n : Nat} (A : Matrix (Fin n) (Fin n) (ZMod 2))
    (v : Matrix (Fin n) (Fin 1) (ZMod 2)) : Prop where
  lin : Holds s T a.linear_map A
  vec : Holds s T a.vector_translation v

theorem Ext.isAff (h : Ext k s T s' T') {a : AffineTransform} {n : Nat} {A : Matrix (Fin n) (Fin n) (ZMod 2)}
    {v : Matrix (Fin n) (Fin 1) (ZMod 2)} (ha : IsAff s T a A v) : IsAff s' T' a A v := ⟨h.holds ha.lin, h.holds ha.vec⟩

/-- Within any `fuel` successive draws there is an invertible matrix. -/
def Lucky (lib : M4ri) (n fuel : Nat) : Prop := ∀ j, ∃ i < fuel, IsUnit (bitMat n n (lib.rnd (j + i)))

theorem Frame.zero (hs : s.Ok) (h : Frame 0 s s') : ∀ q m, s.obj q = some m → s'.obj q = some m :=
  fun q m hm => h q m (hs.ne_zero hm) hm

theorem genAffine_run (hl : lib.Ok) {n : Nat} (hn : 0 < n) (fuel : Nat) (ho : Own s T) :
    RunD (¬ Lucky lib n fuel) (GenRandomAffineTransform lib fuel n) s fun r s' => Ext 4 s T s' T ∧
      ∃ (A : Matrix (Fin n) (Fin n) (ZMod 2)) (v : Matrix (Fin n) (Fin 1) (ZMod 2)), IsUnit A ∧ IsAff s' T r.1 A v ∧
        IsAff s' T r.2 A⁻¹ (A⁻¹ * v) := by
  have h0 := ho.ok
  rw [GenRandomAffineTransform]
  refine RunD.bind (.inr ((zero_new s n n).more h0 (Ext.refl ho))) ?_
  rintro l s1 ⟨e1, pl, l0, lT, -, -⟩
  refine RunD.bind (.inr ((zero_new s1 n 1).more h0 e1)) ?_
  rintro v s2 ⟨e2, pv, v0, vT, f2, nv⟩
  have vl : v ≠ l := by rintro rfl; obtain ⟨m, hm, -⟩ := pl; rw [nv] at hm; cases hm
  replace pl := f2.points pl (pl.ne_zero e1.own.ok)
  refine RunD.bind (.inr ((zero_new s2 n n).more h0 e2)) ?_
  rintro li s3 ⟨e3, pli, li0, liT, f3, nli⟩
  have lil : li ≠ l := by rintro rfl; obtain ⟨m, hm, -⟩ := pl; rw [nli] at hm; cases hm
  have liv : li ≠ v := by rintro rfl; obtain ⟨m, hm, -⟩ := pv; rw [nli] at hm; cases hm
  replace pl := f3.points pl (pl.ne_zero e2.own.ok)
  replace pv := f3.points pv (pv.ne_zero e2.own.ok)
  refine RunD.bind (.inr ((zero_new s3 n 1).more h0 e3)) ?_
  rintro vi s4 ⟨e4, pvi, vi0, viT, f4, nvi⟩
  have vil : vi ≠ l := by rintro rfl; obtain ⟨m, hm, -⟩ := pl; rw [nvi] at hm; cases hm
  have viv : vi ≠ v := by rintro rfl; obtain ⟨m, hm, -⟩ := pv; rw [nvi] at hm; cases hm
  have vili : vi ≠ li := by rintro rfl; obtain ⟨m, hm, -⟩ := pli; rw [nvi] at hm; cases hm
  replace pl := f4.points pl (pl.ne_zero e3.own.ok)
  replace pv := f4.points pv (pv.ne_zero e3.own.ok)
  replace pli := f4.points pli (pli.ne_zero e3.own.ok)
  refine RunD.bind (.inr (random_more (lib := lib) hn e4 l0 pl lT)) ?_
  rintro _ s5 ⟨e5, pl, f5, r5⟩
  replace pv := f5.points pv vl
  replace pli := f5.points pli lil
  replace pvi := f5.points pvi vil
  refine RunD.bind ((draw_more hn fuel s4.rand s5 e5 l0 lT pl r5).weaken (fun hn hl => hn (hl _))) ?_
  rintro _ s6 ⟨e6, ⟨j, hu, pl⟩, f6⟩
  replace pv := f6.points pv vl
  replace pli := f6.points pli lil
  replace pvi := f6.points pvi vil
  refine RunD.bind (.inr (random_more (lib := lib) Nat.zero_lt_one e6 v0 pv vT)) ?_
  rintro _ s7 ⟨e7, pv, f7, -⟩
  replace pl := f7.points pl vl.symm
  replace pli := f7.points pli liv
  replace pvi := f7.points pvi viv
  refine RunD.bind (.inr ((inv_to hl e7.own.ok pl hu (.inr ⟨_, pli.choose_spec.1⟩)).swap h0 e7 li0 pli liT)) ?_
  rintro li' s8 ⟨e8, pli', li'0, li'T, f8, nli'⟩
  have livi' : vi ≠ li' := by rintro rfl; obtain ⟨m, hm, -⟩ := pvi; rw [nli'] at hm; cases hm
  replace pl := f8.points pl lil.symm
  replace pv := f8.points pv liv.symm
  replace pvi := f8.points pvi vili
  refine RunD.bind (.inr ((mul_to hl e8.own.ok pli' pv (.inr ⟨_, pvi.choose_spec.1⟩)).swap h0 e8 vi0 pvi viT)) ?_
  rintro vi' s9 ⟨e9, pvi', vi'0, vi'T, f9, nvi'⟩
  replace pl := f9.points pl vil.symm
  replace pv := f9.points pv viv.symm
  replace pli' := f9.points pli' livi'.symm
  exact .inr (Run.pure ⟨e9, _, _, hu, ⟨⟨pl, lT⟩, ⟨pv, vT⟩⟩, ⟨⟨pli', li'T⟩, ⟨pvi', vi'T⟩⟩⟩)

/-! ## Application to numbers -/

/-- A new matrix replaces the last one. -/
theorem push_push (hs : s.Ok) (m m' : Mzd) :
    setObj (push (push s m) m') s.next none = push { s with next := s.next + 1 } m' := by
  have : Function.update (Function.update (Function.update s.obj s.next (some m)) (s.next + 1) (some m')) s.next none
      = Function.update s.obj (s.next + 1) (some m') := by
    funext q
    by_cases h1 : q = s.next
    · subst h1
      simp [hs.fresh]
    · by_cases h2 : q = s.next + 1
      · subst h2; simp
      · simp [h1, h2]
  simp only [setObj, push, this]

theorem apply_run (hl : lib.Ok) (hs : s.Ok) {l v n w : Nat} {A : Matrix (Fin n) (Fin n) (ZMod 2)}
    {V : Matrix (Fin n) (Fin 1) (ZMod 2)} (hA : Points s l A) (hV : Points s v V) (x : BitVec w)
    {β : Type} (f : Nat → MM β) (hn : 0 < n := by omega) :
    ∃ m, (do
        let a ← ReAllocatedMatGf2 n 1 0
        initVec x a
        let a ← MatGf2Mul lib l a a
        let a ← MatGf2Add a v a
        f a : MM β) s = f (s.next + 2) (push { s with next := s.next + 2 } m) ∧ Is m (A * colVec n x + V) := by
  obtain ⟨m1, e1, h1⟩ := newVec_bind (n := n) hs x (fun a => do
    let a ← MatGf2Mul lib l a a
    let a ← MatGf2Add a v a
    f a)
  obtain ⟨m2, e2, h2⟩ := mulTwo_run hl hs hA x h1
  rw [push_push hs] at e2
  have hs1 := hs.skip 1
  have hV1 : Points ({ s with next := s.next + 1 } : Heap) v V := hV
  obtain ⟨m3, e3, h3⟩ := add_run (hs1.push m2) (Points.of_push h2) (hV1.push hs1 m2)
  have e4 := thenFree (hs1.push m2) (.inr ⟨m2, push_self _ _⟩) e3
  rw [push_push hs1] at e4
  refine ⟨m3, ?_, h3⟩
  have : (do
        let a ← ReAllocatedMatGf2 n 1 0
        initVec x a
        let a ← MatGf2Mul lib l a a
        let a ← MatGf2Add a v a
        f a : MM β) = (do
        let a ← GenMatGf2 n 1
        initVec x a
        let a ← MatGf2Mul lib l a a
        let a ← MatGf2Add a v a
        f a : MM β) := by
    show (do
        let a ← (do MatGf2Free 0; GenMatGf2 n 1 : MM Nat)
        initVec x a
        let a ← MatGf2Mul lib l a a
        let a ← MatGf2Add a v a
        f a : MM β) = _
    rfl
  rw [this, e1, MM_bind e2]
  have e5 : MatGf2Add (s.next + 1) v (s.next + 1) (push { s with next := s.next + 1 } m2)
      = .ok (s.next + 2, push { s with next := s.next + 2 } m3) := e4
  rw [MM_bind e5]

theorem skip_free (hs : s.Ok) (m : Mzd) (k : Nat) :
    MatGf2Free (s.next + k) (push { s with next := s.next + k } m) = .ok ((), { s with next := s.next + k + 1 }) := by
  have e := free_run ((hs.skip k).push m) (push_self _ m)
  rw [setObj_push (hs.skip k)] at e
  exact e

theorem colVec_mul {n w : Nat} (A : Matrix (Fin n) (Fin n) (ZMod 2)) (x : BitVec w) (V : Matrix (Fin n) (Fin 1) (ZMod 2))
    {v : Nat} {y : BitVec v} (h : colVec n y = A * colVec n x + V) (i : Fin n) :
    vecOf n (bitS n) y i = A.mulVec (vecOf n (bitS n) x) i + V i 0 := by
  have := congrFun (congrFun h i) 0
  exact this

end WB.m4ri
