import Mathlib.Data.Finset.Card
import Verif.Proof.MatGf2Init
import Verif.Proof.MatGf2Gauss
import Verif.Proof.MatGf2Misc

/-!
# Reasoning about programs with many matrices (helper lemmas)

A program has some matrices that it frees again, the temporaries `T`; all other matrices stay as they are.
-/
namespace WB.m4ri

variable {lib : M4ri} {s s' s'' : Heap} {T T' T'' : Finset Nat} {k l : Nat}

/-- The temporaries are matrices. -/
structure Own (s : Heap) (T : Finset Nat) : Prop where
  ok : s.Ok
  live : ∀ p ∈ T, ∃ m, s.obj p = some m

/-- From `s` with temporaries `T` to `s'` with temporaries `T'`: everything that is not a temporary stays, and `k` more matrices
that are not temporaries are there. -/
structure Ext (k : Nat) (s : Heap) (T : Finset Nat) (s' : Heap) (T' : Finset Nat) : Prop where
  own : Own s' T'
  keep : ∀ p m, s.obj p = some m → p ∉ T → s'.obj p = some m ∧ p ∉ T'
  live : s'.live + T.card = s.live + T'.card + k
  out : s'.out = s.out
  next : s.next ≤ s'.next

theorem Own.zero (h : Own s T) : 0 ∉ T := by
  intro h0
  obtain ⟨m, hm⟩ := h.live 0 h0
  rw [h.ok.null] at hm; cases hm

theorem Own.lt (h : Own s T) {p : Nat} (hp : p ∈ T) : p < s.next := by
  obtain ⟨m, hm⟩ := h.live p hp
  exact h.ok.lt hm

theorem Own.next (h : Own s T) : s.next ∉ T := fun hp => absurd (h.lt hp) (Nat.lt_irrefl _)

theorem Own.canFree (h : Own s T) {p : Nat} (hp : p = 0 ∨ p ∈ T) : CanFree s p := by
  rcases hp with rfl | hp
  · exact .inl rfl
  · exact .inr (h.live p hp)

theorem Own.empty (h : s.Ok) : Own s ∅ := ⟨h, fun _ hp => by simp at hp⟩

theorem Ext.refl (h : Own s T) : Ext 0 s T s T :=
  ⟨h, fun _ _ hp ht => ⟨hp, ht⟩, rfl, rfl, Nat.le_refl _⟩

theorem Ext.trans (h : Ext k s T s' T') (h' : Ext l s' T' s'' T'') : Ext (k + l) s T s'' T'' where
  own := h'.own
  keep p m hp ht := h'.keep p m (h.keep p m hp ht).1 (h.keep p m hp ht).2
  live := by have := h.live; have := h'.live; omega
  out := h'.out.trans h.out
  next := Nat.le_trans h.next h'.next

theorem Ext.cast (h : Ext k s T s' T') (e : k = l) : Ext l s T s' T' := e ▸ h

/-- A new matrix. -/
theorem Ext.push (h : Own s T) (m : Mzd) : Ext 1 s T (push s m) T where
  own := ⟨h.ok.push m, fun p hp => by obtain ⟨a, ha⟩ := h.live p hp; exact ⟨a, push_old h.ok m ha⟩⟩
  keep p a hp ht := ⟨push_old h.ok m hp, ht⟩
  live := by rw [live_push h.ok]; omega
  out := rfl
  next := by simp

/-- A new temporary. -/
theorem Ext.pushTmp (h : Own s T) (m : Mzd) : Ext 0 s T (m4ri.push s m) (insert s.next T) where
  own := ⟨h.ok.push m, fun p hp => by
    rcases Finset.mem_insert.1 hp with rfl | hp
    · exact ⟨m, push_self s m⟩
    · obtain ⟨a, ha⟩ := h.live p hp; exact ⟨a, push_old h.ok m ha⟩⟩
  keep p a hp ht := ⟨push_old h.ok m hp, by
    rw [Finset.mem_insert]; rintro (rfl | h2)
    · exact absurd (h.ok.lt hp) (Nat.lt_irrefl _)
    · exact ht h2⟩
  live := by rw [live_push h.ok, Finset.card_insert_of_notMem h.next]; omega
  out := rfl
  next := by simp

/-- A temporary is freed. -/
theorem Ext.free (h : Own s T) {p : Nat} (hp : p = 0 ∨ p ∈ T) : Ext 0 s T (setObj s p none) (T.erase p) := by
  rcases hp with rfl | hp
  · rw [setObj_eq_self h.ok.null, Finset.erase_eq_of_notMem h.zero]
    exact Ext.refl h
  · obtain ⟨m, hm⟩ := h.live p hp
    refine ⟨⟨h.ok.setNone p, ?_⟩, ?_, ?_, rfl, Nat.le_refl _⟩
    · intro q hq
      obtain ⟨hne, hq⟩ := Finset.mem_erase.1 hq
      obtain ⟨a, ha⟩ := h.live q hq
      exact ⟨a, by rw [setObj_ne _ _ hne]; exact ha⟩
    · intro q a hq ht
      have hne : q ≠ p := by rintro rfl; exact ht hp
      exact ⟨by rw [setObj_ne _ _ hne]; exact hq, fun h2 => ht (Finset.mem_of_mem_erase h2)⟩
    · have := live_free h.ok hm
      have := Finset.card_erase_add_one hp
      omega

/-- The contents of a temporary change. -/
theorem Ext.write (h : Own s T) {p : Nat} (hp : p ∈ T) (m' : Mzd) : Ext 0 s T (setObj s p (some m')) T := by
  obtain ⟨m, hm⟩ := h.live p hp
  refine ⟨⟨h.ok.setSome hm, ?_⟩, ?_, ?_, rfl, Nat.le_refl _⟩
  · intro q hq
    by_cases e : q = p
    · subst e; exact ⟨m', by simp⟩
    · obtain ⟨a, ha⟩ := h.live q hq
      exact ⟨a, by rw [setObj_ne _ _ e]; exact ha⟩
  · intro q a hq ht
    have hne : q ≠ p := by rintro rfl; exact ht hp
    exact ⟨by rw [setObj_ne _ _ hne]; exact hq, ht⟩
  · have : (setObj s p (some m')).live = s.live := by
      unfold Heap.live
      congr 1
      refine List.filter_congr ?_
      intro q _
      by_cases e : q = p
      · subst e; simp [hm]
      · rw [setObj_ne _ _ e]
    omega

/-- Addresses are used up. -/
theorem Ext.skip (h : Own s T) (j : Nat) : Ext 0 s T { s with next := s.next + j } T where
  own := ⟨h.ok.skip j, h.live⟩
  keep _ _ hp ht := ⟨hp, ht⟩
  live := by rw [live_skip h.ok]; omega
  out := rfl
  next := by simp

/-- Random bits are used up. -/
theorem Ext.rand (h : Own s T) (j : Nat) : Ext 0 s T { s with rand := j } T where
  own := ⟨⟨h.ok.pos, h.ok.null, h.ok.fresh⟩, h.live⟩
  keep _ _ hp ht := ⟨hp, ht⟩
  live := rfl
  out := rfl
  next := Nat.le_refl _

/-- A temporary becomes permanent. -/
theorem Ext.adopt (h : Own s T) {p : Nat} (hp : p ∈ T) : Ext 1 s T s (T.erase p) where
  own := ⟨h.ok, fun q hq => h.live q (Finset.mem_of_mem_erase hq)⟩
  keep _ _ hq ht := ⟨hq, fun h2 => ht (Finset.mem_of_mem_erase h2)⟩
  live := by have := Finset.card_erase_add_one hp; omega
  out := rfl
  next := Nat.le_refl _

/-- A matrix that was allocated in between is freed. -/
theorem Ext.drop (h : Ext (k + 1) s T s' T') {p : Nat} {m : Mzd} (h0 : s.obj p = none) (hp : s'.obj p = some m)
    (ht : p ∉ T') : Ext k s T (setObj s' p none) T' where
  own := ⟨h.own.ok.setNone p, fun q hq => by
    obtain ⟨a, ha⟩ := h.own.live q hq
    exact ⟨a, by rw [setObj_ne _ _ (by rintro rfl; exact ht hq)]; exact ha⟩⟩
  keep q a hq hqt := by
    obtain ⟨h1, h2⟩ := h.keep q a hq hqt
    exact ⟨by rw [setObj_ne _ _ (by rintro rfl; rw [h0] at hq; cases hq)]; exact h1, h2⟩
  live := by have := h.live; have := live_free h.own.ok hp; omega
  out := h.out
  next := h.next

/-- A matrix that was allocated in between is changed. -/
theorem Ext.change (h : Ext k s T s' T') {p : Nat} {m : Mzd} (h0 : s.obj p = none) (hp : s'.obj p = some m)
    (ht : p ∉ T') (m' : Mzd) : Ext k s T (setObj s' p (some m')) T' where
  own := ⟨h.own.ok.setSome hp, fun q hq => by
    obtain ⟨a, ha⟩ := h.own.live q hq
    exact ⟨a, by rw [setObj_ne _ _ (by rintro rfl; exact ht hq)]; exact ha⟩⟩
  keep q a hq hqt := by
    obtain ⟨h1, h2⟩ := h.keep q a hq hqt
    exact ⟨by rw [setObj_ne _ _ (by rintro rfl; rw [h0] at hq; cases hq)]; exact h1, h2⟩
  live := by
    have : (setObj s' p (some m')).live = s'.live := by
      unfold Heap.live
      congr 1
      refine List.filter_congr ?_
      intro q _
      by_cases e : q = p
      · subst e; simp [hp]
      · rw [setObj_ne _ _ e]
    rw [this]; exact h.live
  out := h.out
  next := h.next

theorem Ext.new (h : Ext k s T s' T') : s.Ok → s.obj s'.next = none := fun hs => hs.fresh _ h.next

/-- The pointer `p`, which is not a temporary, points to a matrix that denotes `A`. -/
def Holds (s : Heap) (T : Finset Nat) (p : Nat) {r c : Nat} (A : Matrix (Fin r) (Fin c) (ZMod 2)) : Prop :=
  Points s p A ∧ p ∉ T

theorem Ext.holds (h : Ext k s T s' T') {p r c : Nat} {A : Matrix (Fin r) (Fin c) (ZMod 2)} (hp : Holds s T p A) :
    Holds s' T' p A := by
  obtain ⟨⟨m, hm, hA⟩, ht⟩ := hp
  obtain ⟨h1, h2⟩ := h.keep p m hm ht
  exact ⟨⟨m, h1, hA⟩, h2⟩

theorem Points.setObj {p q r c : Nat} {A : Matrix (Fin r) (Fin c) (ZMod 2)} (h : Points s p A) (o : Option Mzd)
    (hne : p ≠ q) : Points (setObj s q o) p A := by
  obtain ⟨m, hm, hA⟩ := h
  exact ⟨m, by rw [setObj_ne _ _ hne]; exact hm, hA⟩

theorem Points.lt {p r c : Nat} {A : Matrix (Fin r) (Fin c) (ZMod 2)} (hs : s.Ok) (h : Points s p A) : p < s.next := by
  obtain ⟨m, hm, -⟩ := h
  exact hs.lt hm

theorem Points.ne_zero {p r c : Nat} {A : Matrix (Fin r) (Fin c) (ZMod 2)} (hs : s.Ok) (h : Points s p A) : p ≠ 0 := by
  obtain ⟨m, hm, -⟩ := h
  exact hs.ne_zero hm

/-! ## The operations -/

/-- What an operation that returns a new matrix does. -/
def NewMat (x : MM Nat) (s : Heap) {r c : Nat} (A : Matrix (Fin r) (Fin c) (ZMod 2)) : Prop :=
  ∃ m, x s = .ok (s.next, m4ri.push s m) ∧ Is m A

/-- A new matrix that stays. -/
theorem NewMat.run {x : MM Nat} {r c : Nat} {A : Matrix (Fin r) (Fin c) (ZMod 2)} (h : NewMat x s A) (ho : Own s T) :
    Run x s fun p s' => Ext 1 s T s' T ∧ Holds s' T p A ∧ s.obj p = none := by
  obtain ⟨m, e, hm⟩ := h
  exact Run.of_eq e ⟨Ext.push ho m, ⟨Points.of_push hm, ho.next⟩, ho.ok.fresh _ (Nat.le_refl _)⟩

/-- What an operation does that returns a new matrix and frees the old value of a variable. -/
def NewTo (x : MM Nat) (t : Nat) (s : Heap) {r c : Nat} (A : Matrix (Fin r) (Fin c) (ZMod 2)) : Prop :=
  ∃ m, x s = .ok (s.next, m4ri.setObj (m4ri.push s m) t none) ∧ Is m A

/-- A new value of a variable. -/
theorem NewTo.run {x : MM Nat} {t r c : Nat} {A : Matrix (Fin r) (Fin c) (ZMod 2)} (h : NewTo x t s A)
    (ho : Own s T) (ht : t = 0 ∨ t ∈ T) :
    Run x s fun p s' => Ext 0 s T s' ((insert p T).erase t) ∧ Points s' p A ∧ s.obj p = none ∧ p ≠ 0 ∧ p ≠ t ∧ p ∉ T ∧
      ∀ q m, q ≠ t → s.obj q = some m → s'.obj q = some m ∧ q ≠ p := by
  obtain ⟨m, e, hm⟩ := h
  have h1 := Ext.pushTmp ho m
  have h2 := Ext.free h1.own (p := t) (by
    rcases ht with ht | ht
    · exact .inl ht
    · exact .inr (Finset.mem_insert_of_mem ht))
  have hpos := ho.ok.pos
  have hne : s.next ≠ t := by
    rcases ht with rfl | ht
    · omega
    · have := ho.lt ht; omega
  refine Run.of_eq e ⟨h1.trans h2, Points.setObj (Points.of_push hm) _ hne, ho.ok.fresh _ (Nat.le_refl _), by omega, hne,
    ho.next, ?_⟩
  intro q a hq ha
  exact ⟨by rw [setObj_ne _ _ hq]; exact push_old ho.ok m ha, by have := ho.ok.lt ha; omega⟩

/-- The objects other than `t` are still there. -/
def Frame (t : Nat) (s s' : Heap) : Prop := ∀ q m, q ≠ t → s.obj q = some m → s'.obj q = some m

theorem Frame.points {t p r c : Nat} {A : Matrix (Fin r) (Fin c) (ZMod 2)} (h : Frame t s s') (hp : Points s p A)
    (hne : p ≠ t) : Points s' p A := by
  obtain ⟨m, hm, hA⟩ := hp
  exact ⟨m, h p m hne hm, hA⟩

/-- A matrix allocated in between is replaced. -/
theorem NewTo.swap {x : MM Nat} {t r c r' c' : Nat} {A : Matrix (Fin r) (Fin c) (ZMod 2)}
    {B : Matrix (Fin r') (Fin c') (ZMod 2)} (h : NewTo x t s' A) (h0 : s.Ok) (he : Ext (k + 1) s T s' T')
    (ht0 : s.obj t = none) (ht : Points s' t B) (htT : t ∉ T') :
    Run x s' fun p s'' => Ext (k + 1) s T s'' T' ∧ Points s'' p A ∧ s.obj p = none ∧ p ∉ T' ∧ Frame t s' s'' ∧
      s'.obj p = none := by
  obtain ⟨m, e, hm⟩ := h
  have hlt := ht.lt he.own.ok
  refine Run.of_eq e ⟨?_, Points.setObj (Points.of_push hm) _ (by omega), he.new h0, he.own.next, ?_,
    he.own.ok.fresh _ (Nat.le_refl _)⟩
  · obtain ⟨b, hb, -⟩ := ht
    exact ((he.trans (Ext.push he.own m)).cast rfl).drop ht0 (push_old he.own.ok m hb) htT
  · intro q a hq ha
    rw [setObj_ne _ _ hq]; exact push_old he.own.ok m ha

/-- One more matrix. -/
theorem NewMat.more {x : MM Nat} {r c : Nat} {A : Matrix (Fin r) (Fin c) (ZMod 2)} (h : NewMat x s' A) (h0 : s.Ok)
    (he : Ext k s T s' T') :
    Run x s' fun p s'' => Ext (k + 1) s T s'' T' ∧ Points s'' p A ∧ s.obj p = none ∧ p ∉ T' ∧ Frame 0 s' s'' ∧
      s'.obj p = none := by
  obtain ⟨m, e, hm⟩ := h
  refine Run.of_eq e ⟨he.trans (Ext.push he.own m), Points.of_push hm, he.new h0, he.own.next, ?_,
    he.own.ok.fresh _ (Nat.le_refl _)⟩
  intro q a hq ha
  exact push_old he.own.ok m ha

theorem newTo_of_new {x : MM Nat} {t r c : Nat} {A : Matrix (Fin r) (Fin c) (ZMod 2)} (h : NewMat x s A) (hs : s.Ok)
    (hd : CanFree s t) : NewTo (do let r ← x; MatGf2Free t; pure r : MM Nat) t s A := by
  obtain ⟨m, e, hm⟩ := h
  exact ⟨m, thenFree hs hd e, hm⟩

theorem mul_new (hl : lib.Ok) (hs : s.Ok) {a b r k c : Nat} {A : Matrix (Fin r) (Fin k) (ZMod 2)}
    {B : Matrix (Fin k) (Fin c) (ZMod 2)} (ha : Points s a A) (hb : Points s b B) (hk : 0 < k := by omega) (hc : 0 < c := by omega) :
    NewMat (GenMatGf2Mul lib a b) s (A * B) := mul_run hl hs ha hb hk hc

theorem mul_to (hl : lib.Ok) (hs : s.Ok) {a b r k c t : Nat} {A : Matrix (Fin r) (Fin k) (ZMod 2)}
    {B : Matrix (Fin k) (Fin c) (ZMod 2)} (ha : Points s a A) (hb : Points s b B) (ht : CanFree s t) (hk : 0 < k := by omega)
    (hc : 0 < c := by omega) : NewTo (MatGf2Mul lib a b t) t s (A * B) := newTo_of_new (mul_new hl hs ha hb hk hc) hs ht

theorem add_new (hs : s.Ok) {a b r c : Nat} {A B : Matrix (Fin r) (Fin c) (ZMod 2)} (ha : Points s a A)
    (hb : Points s b B) : NewMat (GenMatGf2Add a b) s (A + B) := add_run hs ha hb

theorem add_to (hs : s.Ok) {a b r c t : Nat} {A B : Matrix (Fin r) (Fin c) (ZMod 2)} (ha : Points s a A)
    (hb : Points s b B) (ht : CanFree s t) : NewTo (MatGf2Add a b t) t s (A + B) := newTo_of_new (add_new hs ha hb) hs ht

theorem inv_new (hl : lib.Ok) (hs : s.Ok) {a n : Nat} {A : Matrix (Fin n) (Fin n) (ZMod 2)} (ha : Points s a A)
    (hu : IsUnit A) (hn : 0 < n := by omega) : NewMat (GenMatGf2Inv lib a) s A⁻¹ := inv_run hl hs ha hu hn

theorem inv_to (hl : lib.Ok) (hs : s.Ok) {a n t : Nat} {A : Matrix (Fin n) (Fin n) (ZMod 2)} (ha : Points s a A)
    (hu : IsUnit A) (ht : CanFree s t) (hn : 0 < n := by omega) : NewTo (MatGf2Inv lib a t) t s A⁻¹ :=
  newTo_of_new (inv_new hl hs ha hu hn) hs ht

theorem copy_new (hs : s.Ok) {a r c : Nat} {A : Matrix (Fin r) (Fin c) (ZMod 2)} (ha : Points s a A)
    (hrc : 0 < c ∨ r = 0 := by omega) : NewMat (GenMatGf2Copy a) s A := copy_run hs ha hrc

theorem ind_new (hs : s.Ok) (n : Nat) : NewMat (GenIndMatrix n) s (1 : Matrix (Fin n) (Fin n) (ZMod 2)) := ind_run hs n

theorem zero_new (s : Heap) (r c : Nat) : NewMat (GenMatGf2 r c) s (0 : Matrix (Fin r) (Fin c) (ZMod 2)) :=
  ⟨⟨r, c, fun _ _ => false⟩, rfl, rfl, rfl, fun _ _ => rfl⟩

theorem zero_to (hs : s.Ok) {t : Nat} (ht : CanFree s t) (r c : Nat) :
    NewTo (ReAllocatedMatGf2 r c t) t s (0 : Matrix (Fin r) (Fin c) (ZMod 2)) := by
  refine ⟨⟨r, c, fun _ _ => false⟩, ?_, rfl, rfl, fun _ _ => rfl⟩
  rw [ReAllocatedMatGf2, MM_bind (free_any hs ht)]
  have hne : s.next ≠ t := by
    rcases ht with rfl | ⟨m, h⟩
    · have := hs.pos; omega
    · have := hs.lt h; omega
  show Except.ok (_, _) = Except.ok (_, _)
  congr 2
  simp only [setObj, push]
  rw [Function.update_comm hne]

theorem diag_new (hs : s.Ok) {a b n₁ n₂ : Nat} {A : Matrix (Fin n₁) (Fin n₁) (ZMod 2)}
    {B : Matrix (Fin n₂) (Fin n₂) (ZMod 2)} (ha : Points s a A) (hb : Points s b B) :
    NewMat (MatGf2Diag a b 0) s (diagMat A B) := by
  obtain ⟨m, e, hm⟩ := diag_run hs ha hb (.inl rfl) (ha.ne_zero hs) (hb.ne_zero hs)
  refine ⟨m, ?_, hm⟩
  rw [e, setObj_eq_self (hs.push m).null]

/-- A matrix that is not a temporary is freed. -/
theorem free_holds (hs : s.Ok) {p r c : Nat} {A : Matrix (Fin r) (Fin c) (ZMod 2)} (hp : Points s p A) :
    MatGf2Free p s = .ok ((), setObj s p none) := by
  obtain ⟨m, hm, -⟩ := hp
  exact free_run hs hm

theorem initVec_tmp {w n p : Nat} (ho : Own s T) {V : Matrix (Fin n) (Fin 1) (ZMod 2)} (hp : Points s p V)
    (hT : p ∈ T) (x : BitVec w) :
    Run (initVec x p) s fun _ s' => Ext 0 s T s' T ∧ Points s' p (colVec n x) ∧
      ∀ q m, q ≠ p → s.obj q = some m → s'.obj q = some m := by
  obtain ⟨m, hm, hV⟩ := hp
  refine (initVec_run ho.ok hm (by rw [hV.ncols]; omega) x).mono ?_
  rintro _ _ ⟨m', rfl, hr, hc, hb⟩
  refine ⟨Ext.write ho hT m', ⟨m', by simp, hr.trans hV.nrows, hc.trans hV.ncols, ?_⟩, ?_⟩
  · intro i j
    obtain rfl : j = 0 := Subsingleton.elim _ _
    have := hb i 0 (by rw [hV.nrows]; exact i.2) (by rw [hV.ncols]; exact Nat.zero_lt_one)
    show bitF (m'.bit i 0) = _
    rw [this]
    show bitF (x.getLsbD (m.nrows - 1 - i)) = _
    rw [hV.nrows]
    rfl
  · intro q a hq ha
    rw [setObj_ne _ _ hq]; exact ha

end WB.m4ri
