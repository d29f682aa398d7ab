import Mathlib.LinearAlgebra.Matrix.Block
import Verif.SpecM4ri
import Verif.Proof.Gauss
import Verif.Proof.Wp

/-!
# The matrix layer on top of M4RI (helper lemmas)
-/
namespace WB.m4ri

/-! ## The monad -/

theorem MM_bind {α β : Type} {x : MM α} {f : α → MM β} {s s' : Heap} {a : α} (h : x s = .ok (a, s')) :
    (x >>= f) s = f a s' := by
  show (x s >>= fun r => f r.1 r.2) = _
  rw [h]; rfl

theorem MM_bind_err {α β : Type} {x : MM α} {f : α → MM β} {s : Heap} {e : MFault} (h : x s = .error e) :
    (x >>= f) s = .error e := by
  show (x s >>= fun r => f r.1 r.2) = _
  rw [h]; rfl

/-- `x` runs in `s` without fault, and result and state satisfy `P`. -/
def Run {α : Type} (x : MM α) (s : Heap) (P : α → Heap → Prop) : Prop := ∃ a s', x s = .ok (a, s') ∧ P a s'

namespace Run
variable {α β : Type}

theorem pure {a : α} {s : Heap} {P : α → Heap → Prop} (h : P a s) : Run (Pure.pure a) s P := ⟨a, s, rfl, h⟩

theorem bind {x : MM α} {f : α → MM β} {s : Heap} {P : α → Heap → Prop} {Q : β → Heap → Prop}
    (h : Run x s P) (hf : ∀ a s', P a s' → Run (f a) s' Q) : Run (x >>= f) s Q := by
  obtain ⟨a, s', e, hp⟩ := h
  obtain ⟨b, s'', e', hq⟩ := hf a s' hp
  exact ⟨b, s'', by rw [MM_bind e, e'], hq⟩

theorem mono {x : MM α} {s : Heap} {P Q : α → Heap → Prop} (h : Run x s P) (hpq : ∀ a s', P a s' → Q a s') :
    Run x s Q := by
  obtain ⟨a, s', e, hp⟩ := h
  exact ⟨a, s', e, hpq a s' hp⟩

theorem of_eq {x : MM α} {s s' : Heap} {a : α} {P : α → Heap → Prop} (e : x s = .ok (a, s')) (h : P a s') :
    Run x s P := ⟨a, s', e, h⟩

theorem step {x : MM α} {f : α → MM β} {s s' : Heap} {a : α} {Q : β → Heap → Prop} (e : x s = .ok (a, s'))
    (h : Run (f a) s' Q) : Run (x >>= f) s Q := by
  obtain ⟨b, s'', e', hq⟩ := h
  exact ⟨b, s'', by rw [MM_bind e, e'], hq⟩

theorem foldlM_range' {σ : Type} {f : Nat → σ → MM σ} (P : Nat → σ → Heap → Prop) :
    ∀ (len lo : Nat) (x : σ) (s : Heap), P lo x s →
    (∀ i x s, lo ≤ i → i < lo + len → P i x s → Run (f i x) s (P (i + 1))) →
    Run ((List.range' lo len).foldlM (fun x i => f i x) x) s (P (lo + len)) := by
  intro len
  induction len with
  | zero => intro lo x s h0 _; exact pure (by simpa using h0)
  | succ len ih =>
    intro lo x s h0 hs
    simp only [List.range'_succ, List.foldlM_cons]
    refine bind (hs lo x s (Nat.le_refl _) (by omega) h0) ?_
    intro x' s' h'
    have := ih (lo + 1) x' s' h' (fun i x s h1 h2 hp => hs i x s (by omega) (by omega) hp)
    rwa [show lo + (len + 1) = lo + 1 + len by omega]

theorem forUp {σ : Type} {lo hi : Nat} {x : σ} {s : Heap} {f : Nat → σ → MM σ} {Q : σ → Heap → Prop}
    (P : Nat → σ → Heap → Prop) (hle : lo ≤ hi) (h0 : P lo x s)
    (hs : ∀ i x s, lo ≤ i → i < hi → P i x s → Run (f i x) s (P (i + 1)))
    (hq : ∀ x s, P hi x s → Q x s) : Run (WB.forUp lo hi x f) s Q := by
  have := foldlM_range' P (hi - lo) lo x s h0 (fun i x s h1 h2 hp => hs i x s h1 (by omega) hp)
  rw [show lo + (hi - lo) = hi by omega] at this
  exact this.mono hq

theorem foldlM_range'_reverse {σ : Type} {f : Nat → σ → MM σ} (P : Nat → σ → Heap → Prop) :
    ∀ (len lo : Nat) (x : σ) (s : Heap), P (lo + len) x s →
    (∀ i x s, lo ≤ i → i < lo + len → P (i + 1) x s → Run (f i x) s (P i)) →
    Run ((List.range' lo len).reverse.foldlM (fun x i => f i x) x) s (P lo) := by
  intro len
  induction len with
  | zero => intro lo x s h0 _; exact pure (by simpa using h0)
  | succ len ih =>
    intro lo x s h0 hs
    rw [List.range'_concat]
    simp only [Nat.one_mul, List.reverse_append, List.reverse_cons, List.reverse_nil,
      List.nil_append, List.singleton_append, List.foldlM_cons]
    refine bind (hs (lo + len) x s (by omega) (by omega) h0) ?_
    intro x' s' h'
    exact ih lo x' s' h' (fun i x s h1 h2 hp => hs i x s h1 (by omega) hp)

theorem forDown {σ : Type} {lo hi : Nat} {x : σ} {s : Heap} {f : Nat → σ → MM σ} {Q : σ → Heap → Prop}
    (P : Nat → σ → Heap → Prop) (hle : lo ≤ hi) (h0 : P hi x s)
    (hs : ∀ i x s, lo ≤ i → i < hi → P (i + 1) x s → Run (f i x) s (P i))
    (hq : ∀ x s, P lo x s → Q x s) : Run (WB.forDown hi lo x f) s Q := by
  have := foldlM_range'_reverse P (hi - lo) lo x s (by rw [show lo + (hi - lo) = hi by omega]; exact h0)
    (fun i x s h1 h2 hp => hs i x s h1 (by omega) hp)
  exact this.mono hq

end Run

theorem liftC_run {α : Type} {x : C α} {a : α} (s : Heap) (h : x = .ok a) : liftC x s = .ok (a, s) := by
  rw [h]; rfl

theorem liftC_err {α : Type} {x : C α} {f : Fault} (s : Heap) (h : x = .error f) : liftC x s = .error (.c f) := by
  rw [h]; rfl

/-! ## The heap -/

@[simp] theorem setObj_self (s : Heap) (p : Nat) (o : Option Mzd) : (setObj s p o).obj p = o := by simp [setObj]

theorem setObj_ne (s : Heap) {p q : Nat} (o : Option Mzd) (h : q ≠ p) : (setObj s p o).obj q = s.obj q := by
  simp [setObj, h]

@[simp] theorem setObj_setObj (s : Heap) (p : Nat) (o o' : Option Mzd) :
    setObj (setObj s p o) p o' = setObj s p o' := by
  simp [setObj]

theorem setObj_eq_self {s : Heap} {p : Nat} {o : Option Mzd} (h : s.obj p = o) : setObj s p o = s := by
  subst h; simp [setObj]

@[simp] theorem setObj_next (s : Heap) (p : Nat) (o : Option Mzd) : (setObj s p o).next = s.next := rfl
@[simp] theorem setObj_rand (s : Heap) (p : Nat) (o : Option Mzd) : (setObj s p o).rand = s.rand := rfl
@[simp] theorem setObj_out (s : Heap) (p : Nat) (o : Option Mzd) : (setObj s p o).out = s.out := rfl

theorem push_eq (s : Heap) (m : Mzd) : push s m = setObj { s with next := s.next + 1 } s.next (some m) := rfl

namespace Heap.Ok
variable {s : Heap}

theorem ne_zero (h : s.Ok) {p : Nat} {m : Mzd} (hp : s.obj p = some m) : p ≠ 0 := by
  rintro rfl; rw [h.null] at hp; cases hp

theorem lt (h : s.Ok) {p : Nat} {m : Mzd} (hp : s.obj p = some m) : p < s.next := by
  by_contra hc
  rw [h.fresh p (by omega)] at hp; cases hp

theorem setSome (h : s.Ok) {p : Nat} {m m' : Mzd} (hp : s.obj p = some m) : (setObj s p (some m')).Ok where
  pos := h.pos
  null := by rw [setObj_ne _ _ (h.ne_zero hp).symm]; exact h.null
  fresh q hq := by
    rw [setObj_ne _ _ (by have := h.lt hp; simp at hq; omega)]; exact h.fresh q hq

theorem setNone (h : s.Ok) (p : Nat) : (setObj s p none).Ok where
  pos := h.pos
  null := by
    by_cases hp : 0 = p
    · subst hp; simp
    · rw [setObj_ne _ _ hp]; exact h.null
  fresh q hq := by
    by_cases hp : q = p
    · subst hp; simp
    · rw [setObj_ne _ _ hp]; exact h.fresh q hq

theorem push (h : s.Ok) (m : Mzd) : (push s m).Ok where
  pos := by simp [m4ri.push]
  null := by
    have := h.pos
    show Function.update s.obj s.next (some m) 0 = none
    rw [Function.update_of_ne (by omega)]; exact h.null
  fresh q hq := by
    have : s.next + 1 ≤ q := hq
    show Function.update s.obj s.next (some m) q = none
    rw [Function.update_of_ne (by omega)]; exact h.fresh q (by omega)

end Heap.Ok

theorem deref_run {s : Heap} (hs : s.Ok) {p : Nat} {m : Mzd} (hp : s.obj p = some m) : deref p s = .ok (m, s) := by
  simp [deref, hs.ne_zero hp, hp]

theorem deref_freed {s : Heap} {p : Nat} (h0 : p ≠ 0) (hp : s.obj p = none) : deref p s = .error .freed := by
  simp [deref, h0, hp]

theorem store_run (s : Heap) (p : Nat) (m : Mzd) : store p m s = .ok ((), setObj s p (some m)) := rfl

theorem alloc_run (s : Heap) (m : Mzd) : alloc m s = .ok (s.next, push s m) := rfl

theorem free_run {s : Heap} (hs : s.Ok) {p : Nat} {m : Mzd} (hp : s.obj p = some m) :
    MatGf2Free p s = .ok ((), setObj s p none) := by
  rw [MatGf2Free, if_pos (hs.ne_zero hp), mzd_free, MM_bind (deref_run hs hp)]
  rfl

theorem free_null (s : Heap) : MatGf2Free 0 s = .ok ((), s) := rfl

theorem free_freed {s : Heap} {p : Nat} (h0 : p ≠ 0) (hp : s.obj p = none) : MatGf2Free p s = .error .freed := by
  rw [MatGf2Free, if_pos h0, mzd_free, MM_bind_err (deref_freed h0 hp)]

/-- A new object that is freed leaves only the address used up. -/
theorem setObj_push {s : Heap} (hs : s.Ok) (m : Mzd) :
    setObj (push s m) s.next none = { s with next := s.next + 1 } := by
  have : Function.update (Function.update s.obj s.next (some m)) s.next none = s.obj := by
    rw [Function.update_idem, ← hs.fresh s.next (Nat.le_refl _), Function.update_eq_self]
  simp only [setObj, push, this]

theorem setObj_push_some (s : Heap) (m m' : Mzd) : setObj (push s m) s.next (some m') = push s m' := by
  simp [setObj, push]

@[simp] theorem push_next (s : Heap) (m : Mzd) : (push s m).next = s.next + 1 := rfl
@[simp] theorem push_self (s : Heap) (m : Mzd) : (push s m).obj s.next = some m := by simp [push]

theorem push_ne (s : Heap) (m : Mzd) {q : Nat} (h : q ≠ s.next) : (push s m).obj q = s.obj q := by
  simp [push, h]

theorem push_old {s : Heap} (hs : s.Ok) (m : Mzd) {q : Nat} {a : Mzd} (h : s.obj q = some a) :
    (push s m).obj q = some a := by
  rw [push_ne _ _ (by have := hs.lt h; omega)]; exact h

/-- Using up an address. -/
theorem Heap.Ok.skip {s : Heap} (h : s.Ok) (k : Nat) : ({ s with next := s.next + k } : Heap).Ok where
  pos := by have := h.pos; simp; omega
  null := h.null
  fresh p hp := h.fresh p (by simp at hp; omega)

/-! ## Bits -/

theorem get_run {s : Heap} (hs : s.Ok) {p i j : Nat} {m : Mzd} (hp : s.obj p = some m) (hi : i < m.nrows)
    (hj : j < m.ncols) : MatGf2Get p i j s = .ok (m.bit i j, s) := by
  rw [MatGf2Get, mzd_read_bit, MM_bind (deref_run hs hp)]
  exact liftC_run s (by simp [readBit, hi, hj])

/-- The bit that `MatGf2Set` stores. -/
def setBit (v : Int) (j : Nat) : Bool := (-(BitVec.ofInt 64 (v.tmod 2))).getLsbD (j % 64)

/-- A matrix with one bit replaced. -/
def Mzd.set (m : Mzd) (i j : Nat) (b : Bool) : Mzd :=
  { m with bit := fun r c => if r = i ∧ c = j then b else m.bit r c }

theorem set_run {s : Heap} (hs : s.Ok) {p i j : Nat} {m : Mzd} (v : Int) (hp : s.obj p = some m) (hi : i < m.nrows)
    (hj : j < m.ncols) : MatGf2Set p i j v s = .ok ((), setObj s p (some (m.set i j (setBit v j)))) := by
  rw [MatGf2Set, mzd_write_bit, MM_bind (deref_run hs hp)]
  rw [MM_bind (liftC_run s (a := m.set i j (setBit v j)) (by simp [writeBit, hi, hj, Mzd.set, setBit]))]
  exact store_run s p _

theorem setBit_bool (b : Bool) (j : Nat) : setBit (if b then 1 else 0) j = b := by
  have hj : j % 64 < 64 := Nat.mod_lt _ (by decide)
  cases b
  · simp [setBit]
  · have : ∀ k : Fin 64, (-(BitVec.ofInt 64 ((1 : Int).tmod 2))).getLsbD k.val = true := by decide +kernel
    simpa [setBit] using this ⟨_, hj⟩

theorem setBit_zero (j : Nat) : setBit 0 j = false := setBit_bool false j
theorem setBit_one (j : Nat) : setBit 1 j = true := setBit_bool true j

/-- The bit that `MatGf2Set` stores, for every value. -/
theorem setBit_eq (v : Int) (j : Nat) :
    setBit v j = if v % 2 = 0 then false else if 0 ≤ v then true else decide (j % 64 = 0) := by
  have hj : j % 64 < 64 := Nat.mod_lt _ (by decide)
  have h1 : ∀ k : Fin 64, (-(BitVec.ofInt 64 (1 : Int))).getLsbD k.val = true := by decide +kernel
  have h2 : ∀ k : Fin 64, (-(BitVec.ofInt 64 (-1 : Int))).getLsbD k.val = decide (k.val = 0) := by decide +kernel
  have ht : v.tmod 2 = if 0 ≤ v then v % 2 else -((-v) % 2) := by
    split
    · rename_i h; exact Int.tmod_eq_emod_of_nonneg h
    · rename_i h
      have : v.tmod 2 = -((-v).tmod 2) := by rw [Int.neg_tmod, neg_neg]
      rw [this, Int.tmod_eq_emod_of_nonneg (by omega)]
  unfold setBit
  rcases Int.emod_two_eq_zero_or_one v with h | h
  · rw [if_pos h]
    have : v.tmod 2 = 0 := by rw [ht]; split <;> omega
    rw [this]; simp
  · rw [if_neg (by omega)]
    by_cases hv : 0 ≤ v
    · rw [if_pos hv, show v.tmod 2 = 1 by rw [ht, if_pos hv]; omega]; exact h1 ⟨_, hj⟩
    · rw [if_neg hv, show v.tmod 2 = -1 by rw [ht, if_neg hv]; omega]; exact h2 ⟨_, hj⟩

@[simp] theorem Mzd.set_nrows (m : Mzd) (i j : Nat) (b : Bool) : (m.set i j b).nrows = m.nrows := rfl
@[simp] theorem Mzd.set_ncols (m : Mzd) (i j : Nat) (b : Bool) : (m.set i j b).ncols = m.ncols := rfl

/-! ## Vectors and numbers -/

/-- The invariant of loops that write to one matrix: only this matrix has changed, and its bits are described by `f`. -/
def Wrote (s : Heap) (p : Nat) (m : Mzd) (f : Nat → Nat → Bool) (s' : Heap) : Prop :=
  ∃ m' : Mzd, s' = setObj s p (some m') ∧ m'.nrows = m.nrows ∧ m'.ncols = m.ncols ∧
    ∀ i j, i < m.nrows → j < m.ncols → m'.bit i j = f i j

theorem Wrote.refl {s : Heap} {p : Nat} {m : Mzd} (hp : s.obj p = some m) : Wrote s p m m.bit s :=
  ⟨m, (setObj_eq_self hp).symm, rfl, rfl, fun _ _ _ _ => rfl⟩

theorem Wrote.set {s s' : Heap} {p : Nat} {m : Mzd} {f : Nat → Nat → Bool} (hs : s.Ok) (hp : s.obj p = some m)
    (h : Wrote s p m f s') {i j : Nat} (v : Int) (hi : i < m.nrows) (hj : j < m.ncols) :
    Run (MatGf2Set p i j v) s' fun _ s'' =>
      Wrote s p m (fun r c => if r = i ∧ c = j then setBit v j else f r c) s'' := by
  obtain ⟨m', rfl, h1, h2, h3⟩ := h
  refine Run.of_eq (set_run (hs.setSome hp) v (setObj_self _ _ _) (by omega) (by omega)) ?_
  refine ⟨m'.set i j (setBit v j), by rw [setObj_setObj], h1, h2, ?_⟩
  intro r c hr hc
  simp only [Mzd.set]
  split
  · rfl
  · exact h3 r c hr hc

theorem Wrote.congr {s s' : Heap} {p : Nat} {m : Mzd} {f g : Nat → Nat → Bool} (h : Wrote s p m f s')
    (hfg : ∀ i j, i < m.nrows → j < m.ncols → f i j = g i j) : Wrote s p m g s' := by
  obtain ⟨m', e, h1, h2, h3⟩ := h
  exact ⟨m', e, h1, h2, fun i j hi hj => (h3 i j hi hj).trans (hfg i j hi hj)⟩

theorem initVec_run {w : Nat} {s : Heap} (hs : s.Ok) {p : Nat} {m : Mzd} (hp : s.obj p = some m)
    (hc : 0 < m.ncols) (data : BitVec w) :
    Run (initVec data p) s fun _ s' =>
      Wrote s p m (fun i j => if j = 0 then data.getLsbD (m.nrows - 1 - i) else m.bit i j) s' := by
  rw [initVec]
  refine Run.step (deref_run hs hp) ?_
  refine Run.bind (P := fun _ s' =>
      Wrote s p m (fun i j => if j = 0 then data.getLsbD (m.nrows - 1 - i) else m.bit i j) s') ?_ ?_
  · refine Run.forDown (fun i t s' => t = data >>> (m.nrows - i) ∧
        Wrote s p m (fun r j => if i ≤ r ∧ j = 0 then data.getLsbD (m.nrows - 1 - r) else m.bit r j) s')
        (Nat.zero_le _) ⟨by simp, ?_⟩ ?_ ?_
    · refine (Wrote.refl hp).congr ?_
      intro i j hi _
      rw [if_neg (by omega)]
    · rintro i t s' - hi ⟨rfl, hw⟩
      refine Run.bind (hw.set hs hp _ hi hc) ?_
      intro _ s'' hw'
      refine Run.pure ⟨?_, ?_⟩
      · rw [← BitVec.shiftRight_add]; congr 1; omega
      · refine hw'.congr ?_
        intro r c hr hc'
        by_cases h : r = i ∧ c = 0
        · rw [if_pos h, setBit_bool, if_pos (by omega)]
          rw [BitVec.getLsbD_ushiftRight]
          obtain ⟨rfl, -⟩ := h
          congr 1; omega
        · rw [if_neg h]
          by_cases h2 : i + 1 ≤ r ∧ c = 0
          · rw [if_pos h2, if_pos (by omega)]
          · rw [if_neg h2, if_neg (by omega)]
    · rintro t s' ⟨-, hw⟩
      refine hw.congr ?_
      intro r c _ _
      simp
  · intro _ s' h
    exact Run.pure h

theorem shl_add_bit {w : Nat} (d : BitVec w) (b : Bool) (k : Nat) (hk : k < w) :
    ((d <<< 1) + (if b then 1#w else 0#w)).getLsbD k = if k = 0 then b else d.getLsbD (k - 1) := by
  have : (d <<< 1) + (if b then 1#w else 0#w) = (d <<< 1) ||| (if b then 1#w else 0#w) := by
    apply BitVec.add_eq_or_of_and_eq_zero
    apply BitVec.eq_of_getLsbD_eq
    intro i hi
    cases b
    · simp
    · simp only [BitVec.getLsbD_and, BitVec.getLsbD_shiftLeft, if_true, BitVec.getLsbD_one, BitVec.getLsbD_zero]
      by_cases h : i = 0
      · subst h; simp
      · simp [h]
  rw [this, BitVec.getLsbD_or, BitVec.getLsbD_shiftLeft]
  by_cases h : k = 0
  · subst h; cases b <;> simp [hk]
  · have : ¬ k < 1 := by omega
    cases b <;> simp [hk, h, this]

theorem getDigital_run {w : Nat} {s : Heap} (hs : s.Ok) {p : Nat} {m : Mzd} (hp : s.obj p = some m)
    (hc : m.ncols = 1) :
    ∃ y : BitVec w, getDigital w p s = .ok (y, s) ∧
      ∀ k, k < w → y.getLsbD k = (decide (k < m.nrows) && m.bit (m.nrows - 1 - k) 0) := by
  have : Run (getDigital w p) s fun y s' => s' = s ∧
      ∀ k, k < w → y.getLsbD k = (decide (k < m.nrows) && m.bit (m.nrows - 1 - k) 0) := by
    rw [getDigital]
    refine Run.step (deref_run hs hp) ?_
    rw [if_neg (by omega)]
    refine Run.forUp (fun i (d : BitVec w) s' => s' = s ∧
      ∀ k, k < w → d.getLsbD k = (decide (k < i) && m.bit (i - 1 - k) 0)) (Nat.zero_le _)
      ⟨rfl, by intro k _; simp⟩ ?_ ?_
    · rintro i d _ - hi ⟨rfl, hd⟩
      refine Run.step (get_run hs hp hi (by omega)) ?_
      refine Run.pure ⟨rfl, ?_⟩
      intro k hk
      rw [shl_add_bit _ _ _ hk]
      by_cases h0 : k = 0
      · subst h0; simp
      · rw [if_neg h0, hd _ (by omega), show i - 1 - (k - 1) = i + 1 - 1 - k by omega]
        congr 1
        exact decide_eq_decide.2 (by omega)
    · rintro d _ ⟨rfl, hd⟩
      exact ⟨rfl, hd⟩
  obtain ⟨y, s', e, rfl, h⟩ := this
  exact ⟨y, e, h⟩

end WB.m4ri
