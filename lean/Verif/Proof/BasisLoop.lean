import Verif.Proof.BasisTab
import Verif.Proof.Methods

/-!
# Loops of the basis matrix method
-/
namespace WB.basis
open Matrix

/-- `x` runs without a fault from state `s` and its result satisfies `Q`. -/
def OkB {α : Type} (x : BM α) (s : LW) (Q : α → LW → Prop) : Prop := Ok (x s) (fun r => Q r.1 r.2)

namespace OkB
variable {α β : Type}

theorem pure_iff (a : α) (s : LW) (Q : α → LW → Prop) : OkB (pure a) s Q ↔ Q a s := Ok.pure_iff (a, s) _

theorem bind_iff (x : BM α) (f : α → BM β) (s : LW) (Q : β → LW → Prop) :
    OkB (x >>= f) s Q ↔ OkB x s (fun a s' => OkB (f a) s' Q) := by
  unfold OkB
  exact Ok.bind_iff (x s) (fun r => f r.1 r.2) _

theorem lift_iff (x : C α) (s : LW) (Q : α → LW → Prop) : OkB (liftB x) s Q ↔ Ok x (fun a => Q a s) := by
  unfold OkB liftB
  cases x <;> simp

theorem mono {x : BM α} {s : LW} {Q R : α → LW → Prop} (h : OkB x s Q) (hqr : ∀ a s', Q a s' → R a s') :
    OkB x s R := Ok.mono h fun r => hqr r.1 r.2

theorem bind {x : BM α} {f : α → BM β} {s : LW} {P : α → LW → Prop} {Q : β → LW → Prop} (h : OkB x s P)
    (hf : ∀ a s', P a s' → OkB (f a) s' Q) : OkB (x >>= f) s Q := (bind_iff x f s Q).2 (h.mono hf)

theorem rand {lc : BitVec 32 → Nat → Nat} {s : LW} {Q : Nat → LW → Prop}
    (h : Q (lc s.seed s.cnt) { s with cnt := s.cnt + 1 }) : OkB (basis.rand lc) s Q := (Ok.pure_iff _ _).2 h

end OkB

theorem foldl_inv {σ : Type} {f : Nat → σ → BM σ} (P : Nat → σ → LW → Prop) :
    ∀ (len lo : Nat) (a : σ) (s : LW), P lo a s →
    (∀ i a s, lo ≤ i → i < lo + len → P i a s → OkB (f i a) s (P (i + 1))) →
    OkB ((List.range' lo len).foldlM (fun a i => f i a) a) s (P (lo + len)) := by
  intro len
  induction len with
  | zero => intro lo a s h0 _; exact (OkB.pure_iff a s _).2 h0
  | succ len ih =>
    intro lo a s h0 hs
    simp only [List.range'_succ, List.foldlM_cons]
    refine OkB.bind (hs lo a s (Nat.le_refl _) (by omega) h0) ?_
    intro a' s' h'
    have := ih (lo + 1) a' s' h' (fun i a s h1 h2 hp => hs i a s (by omega) (by omega) hp)
    rwa [show lo + (len + 1) = lo + 1 + len by omega]

theorem OkB.forUp {σ : Type} {n : Nat} {a : σ} {s : LW} {f : Nat → σ → BM σ} {Q : σ → LW → Prop}
    (P : Nat → σ → LW → Prop) (h0 : P 0 a s)
    (hs : ∀ i a s, i < n → P i a s → OkB (f i a) s (P (i + 1))) (hq : ∀ a s, P n a s → Q a s) :
    OkB (WB.forUp 0 n a f) s Q := by
  have := foldl_inv P n 0 a s h0 (fun i a s _ h2 hp => hs i a s (by omega) hp)
  rw [Nat.zero_add] at this
  exact this.mono hq

/-- The state after `srand((randseed++) ^ time(NULL))`. -/
def LW.seeded (s : LW) : LW :=
  ⟨{ s.w with randseed := s.w.randseed + 1#32, now := s.w.now + 1 }, s.w.randseed ^^^ s.w.clock s.w.now, 0⟩

theorem BM_bind_error {α β : Type} {x : BM α} {f : α → BM β} {s : LW} {e : Fault}
    (h : x s = .error e) : (x >>= f) s = .error e := by
  show (x s >>= fun p => f p.1 p.2) = _
  rw [h]; rfl

theorem BM_bind_run {α β : Type} {x : BM α} {f : α → BM β} {s s' : LW} {a : α}
    (h : x s = .ok (a, s')) : (x >>= f) s = f a s' := by
  show (x s >>= fun p => f p.1 p.2) = _
  rw [h]; rfl

theorem srandReseed_run (s : LW) (h : s.w.randseed ≠ 0x7fffffff#32) : srandReseed s = .ok ((), s.seeded) := by
  have h1 : ofCM randseedPostIncInt s =
      .ok (s.w.randseed, { s with w := { s.w with randseed := s.w.randseed + 1#32 } }) := by
    unfold ofCM randseedPostIncInt
    rw [if_neg h]
  unfold srandReseed
  rw [BM_bind_run h1]
  rfl

theorem srandReseed_overflow (s : LW) (h : s.w.randseed = 0x7fffffff#32) :
    srandReseed s = .error .overflow := by
  have h1 : ofCM randseedPostIncInt s = .error .overflow := by
    unfold ofCM randseedPostIncInt
    rw [if_pos h]
  unfold srandReseed
  exact BM_bind_error h1

theorem OkB.reseed {s : LW} (h : s.w.randseed ≠ 0x7fffffff#32) {Q : Unit → LW → Prop} (hq : Q () s.seeded) :
    OkB srandReseed s Q := by
  unfold OkB
  rw [srandReseed_run s h, Ok.ok_iff]
  exact hq

/-- The table entry selected by a value of `rand()`. -/
def sel {α : Type} (T : Vector α 16) (r : Nat) : α := T[r % 16]'(Nat.mod_lt _ (by norm_num))

theorem rd_sel {α : Type} (T : Vector α 16) (r : Nat) : rd T (r % 16) = .ok (sel T r) :=
  rd_ok _ _ (Nat.mod_lt _ (by norm_num))

section
variable {α : Type} {n N : Nat} {m : α → Mat n} {mul : α → α → C α}
  (hmul : ∀ A B, Ok (mul A B) (fun C => m C = m A * m B))
include hmul

theorem prod_loop (T : Vector α 16) (lc : BitVec 32 → Nat → Nat) (A : α) (s : LW) :
    OkB (WB.forUp 0 N A fun _ A => do
      let r := (← rand lc) % 16
      liftB do mul A (← rd T r)) s
      (fun A' s' => m A' = m A * ((List.range N).map fun i => m (sel T (lc s.seed (s.cnt + i)))).prod ∧
        s' = { s with cnt := s.cnt + N }) := by
  refine OkB.forUp (fun k A' s' =>
    m A' = m A * ((List.range k).map fun i => m (sel T (lc s.seed (s.cnt + i)))).prod ∧
        s' = { s with cnt := s.cnt + k }) ⟨by simp, rfl⟩ ?_ (fun _ _ h => h)
  rintro k A1 s1 - ⟨h1, rfl⟩
  rw [OkB.bind_iff]
  refine OkB.rand ?_
  simp only
  rw [OkB.lift_iff, rd_sel, C_pure_bind]
  refine (hmul _ _).mono fun C hC => ⟨?_, rfl⟩
  rw [hC, h1, List.range_succ, List.map_append, List.prod_append, ← mul_assoc]
  simp

theorem pair_loop (T : Vector α 16) (lc : BitVec 32 → Nat → Nat) (A : α) (f0 : Vector Nat N) (s : LW) :
    OkB (WB.forUp 0 N (A, f0) fun i (A, flag) => do
      let r := (← rand lc) % 16
      let A ← liftB do mul A (← rd T r)
      let flag ← liftB (wr flag i r)
      pure (A, flag)) s
      (fun p s' => m p.1 = m A * ((List.range N).map fun i => m (sel T (lc s.seed (s.cnt + i)))).prod ∧
        (∀ i (hi : i < N), p.2[i] = lc s.seed (s.cnt + i) % 16) ∧
        s' = { s with cnt := s.cnt + N }) := by
  refine OkB.forUp (fun k p s' =>
    m p.1 = m A * ((List.range k).map fun i => m (sel T (lc s.seed (s.cnt + i)))).prod ∧
        (∀ i (hi : i < N), i < k → p.2[i] = lc s.seed (s.cnt + i) % 16) ∧
        s' = { s with cnt := s.cnt + k }) ⟨by simp, fun i _ h => absurd h (Nat.not_lt_zero i), rfl⟩ ?_
    (fun _ _ h => ⟨h.1, fun i hi => h.2.1 i hi hi, h.2.2⟩)
  rintro k ⟨A1, f1⟩ s1 hk ⟨h1, h2, rfl⟩
  simp only at h1 h2 ⊢
  rw [OkB.bind_iff]
  refine OkB.rand ?_
  simp only
  rw [OkB.bind_iff, OkB.lift_iff, rd_sel, C_pure_bind]
  refine (hmul _ _).mono fun C hC => ?_
  rw [OkB.bind_iff, OkB.lift_iff, wr_ok _ _ _ hk, Ok.ok_iff, OkB.pure_iff]
  refine ⟨?_, ?_, rfl⟩
  · rw [hC, h1, List.range_succ, List.map_append, List.prod_append, ← mul_assoc]
    simp
  · intro i hi hlt
    simp only
    rw [Vector.getElem_set]
    split
    · rename_i e; subst e; rfl
    · exact h2 i hi (by omega)

/-- Multiply by the matrices `G i`, last one first. -/
theorem down_loop (f : Nat → α → C α) (G : Nat → α) (hf : ∀ i < N, ∀ B, f i B = mul B (G i)) (B : α) :
    Ok (WB.forDown N 0 B f)
      (fun B' => m B' = m B * ((List.range N).reverse.map fun i => m (G i)).prod) := by
  have key : ∀ len B, (∀ i < len, ∀ B, f i B = mul B (G i)) →
      Ok ((List.range' 0 len).reverse.foldlM (fun B i => f i B) B)
        (fun B' => m B' = m B * ((List.range len).reverse.map fun i => m (G i)).prod) := by
    intro len
    induction len with
    | zero => intro B _; exact (Ok.pure_iff _ _).2 (by simp)
    | succ len ih =>
      intro B hf
      rw [List.range'_concat]
      simp only [Nat.one_mul, List.reverse_append, List.reverse_cons, List.reverse_nil,
        List.nil_append, List.singleton_append, List.foldlM_cons, Nat.zero_add]
      rw [hf len (Nat.lt_succ_self _)]
      refine Ok.bind (hmul _ _) ?_
      intro C hC
      refine (ih C (fun i hi => hf i (by omega))).mono ?_
      intro B' hB'
      rw [hB', hC, List.range_succ, List.reverse_append, List.map_append, List.prod_append, ← mul_assoc]
      simp
  exact key N B hf

end

theorem trail_loop {N : Nat} (lc : BitVec 32 → Nat → Nat) (TM : Vector (Vector (BitVec 8) N) TEST) (k : Nat)
    (hk : k < TEST) (s : LW) :
    OkB (WB.forUp 0 N TM fun i TM => do
      let r := (← rand lc) % 16
      liftB (wr2 TM k i (BitVec.ofNat 8 r))) s
      (fun TM' s' => (∀ j (hj : j < TEST), j ≠ k → TM'[j] = TM[j]) ∧
        (∀ i (hi : i < N), (TM'[k][i]).toNat = lc s.seed (s.cnt + i) % 16) ∧
        s' = { s with cnt := s.cnt + N }) := by
  refine OkB.forUp (fun c TM' s' => (∀ j (hj : j < TEST), j ≠ k → TM'[j] = TM[j]) ∧
        (∀ i (hi : i < N), i < c → (TM'[k][i]).toNat = lc s.seed (s.cnt + i) % 16) ∧
        s' = { s with cnt := s.cnt + c }) ⟨fun _ _ _ => rfl, fun i _ h => absurd h (Nat.not_lt_zero i), rfl⟩ ?_
    (fun _ _ h => ⟨h.1, fun i hi => h.2.1 i hi hi, h.2.2⟩)
  rintro c TM1 s1 hc ⟨h1, h2, rfl⟩
  rw [OkB.bind_iff]
  refine OkB.rand ?_
  simp only
  rw [OkB.lift_iff, wr2_ok _ _ _ _ hk hc, Ok.ok_iff]
  refine ⟨fun j hj hne => ?_, fun i hi hlt => ?_, rfl⟩
  · rw [Vector.getElem_set_ne _ _ (Ne.symm hne)]; exact h1 j hj hne
  · rw [Vector.getElem_set_self, Vector.getElem_set]
    split
    · rename_i e; subst e
      rw [BitVec.toNat_ofNat]
      have := Nat.mod_lt (lc s.seed (s.cnt + c)) (show 0 < 16 by norm_num)
      exact Nat.mod_eq_of_lt (by omega)
    · exact h2 i hi (by omega)

theorem prod_inv {n : Nat} (N : Nat) (f g : Nat → Mat n) (h : ∀ i < N, f i * g i = 1) :
    ((List.range N).map f).prod * ((List.range N).reverse.map g).prod = 1 := by
  induction N with
  | zero => simp
  | succ N ih =>
    rw [List.range_succ, List.reverse_append, List.map_append, List.map_append, List.prod_append,
      List.prod_append]
    simp only [List.map_cons, List.map_nil, List.prod_cons, List.prod_nil, mul_one, List.reverse_cons,
      List.reverse_nil, List.nil_append]
    rw [mul_assoc, ← mul_assoc (f N), h N (Nat.lt_succ_self _), one_mul]
    exact ih (fun i hi => h i (by omega))

theorem isUnit_prod {n : Nat} (l : List (Mat n)) : IsUnit l.prod ↔ ∀ A ∈ l, IsUnit A := by
  induction l with
  | nil => simp
  | cons A l ih =>
    rw [List.prod_cons, Matrix.isUnit_iff_isUnit_det, Matrix.det_mul, IsUnit.mul_iff,
      ← Matrix.isUnit_iff_isUnit_det, ← Matrix.isUnit_iff_isUnit_det, ih]
    simp

end WB.basis
