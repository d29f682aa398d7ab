import Verif.Proof.RandRun
import Verif.Proof.ElimAll
import Verif.Model.Seed

/-!
# The matrix generation programs: common lemmas
-/
namespace WB
open Matrix

theorem reseedInt_run (w : World) (h : w.randseed ≠ 0x7fffffff#32) :
    reseedInt w = .ok ((), w.seeded) := by
  have h1 : randseedPostIncInt w = .ok (w.randseed, { w with randseed := w.randseed + 1#32 }) := by
    unfold randseedPostIncInt; rw [if_neg h]
  have h1' : randseedPostInc w = .ok (w.randseed, { w with randseed := w.randseed + 1#32 }) := rfl
  have h2 : reseed w = .ok ((), w.seeded) := reseed_run' w
  rw [← h2]
  unfold reseedInt reseed
  rw [CM_bind_run h1, CM_bind_run h1']

theorem reseedInt_overflow (w : World) (h : w.randseed = 0x7fffffff#32) :
    reseedInt w = .error .overflow := by
  unfold reseedInt
  show (randseedPostIncInt w >>= _) = _
  unfold randseedPostIncInt
  rw [if_pos h]; rfl

theorem CM_bind_error {α β : Type} {x : CM α} {f : α → CM β} {w : World} {e : Fault}
    (h : x w = .error e) : (x >>= f) w = .error e := by
  show (x w >>= fun p => f p.1 p.2) = _
  rw [h]; rfl

theorem OkM_reseedInt {w : World} (h : w.randseed ≠ 0x7fffffff#32) {Q : Unit → World → Prop}
    (hq : Q () w.seeded) : OkM reseedInt w Q := by
  unfold OkM; rw [reseedInt_run w h, Ok.ok_iff]; exact hq

theorem foldlM_range'_reverse_invM {σ : Type} {f : Nat → σ → CM σ} (P : Nat → σ → World → Prop) :
    ∀ (len lo : Nat) (s : σ) (w : World), P (lo + len) s w →
    (∀ i s w, lo ≤ i → i < lo + len → P (i + 1) s w → OkM (f i s) w (P i)) →
    OkM ((List.range' lo len).reverse.foldlM (fun s i => f i s) s) w (P lo) := by
  intro len
  induction len with
  | zero => intro lo s w h0 _; simpa using h0
  | succ len ih =>
    intro lo s w h0 hs
    rw [List.range'_concat]
    simp only [Nat.one_mul, List.reverse_append, List.reverse_cons, List.reverse_nil,
      List.nil_append, List.singleton_append, List.foldlM_cons]
    refine OkM.bind (hs (lo + len) s w (by omega) (by omega) h0) ?_
    intro s' w' h'
    exact ih lo s' w' h' (fun i s w h1 h2 hp => hs i s w h1 (by omega) hp)

/-- Invariant rule for `for(i = hi - 1; i >= lo; i--)` loops that use the global variables. -/
theorem OkM.forDown {σ : Type} {lo hi : Nat} {s : σ} {w : World} {f : Nat → σ → CM σ}
    {Q : σ → World → Prop} (P : Nat → σ → World → Prop) (hle : lo ≤ hi) (h0 : P hi s w)
    (hs : ∀ i s w, lo ≤ i → i < hi → P (i + 1) s w → OkM (f i s) w (P i))
    (hq : ∀ s w, P lo s w → Q s w) : OkM (WB.forDown hi lo s f) w Q := by
  have := foldlM_range'_reverse_invM P (hi - lo) lo s w
    (by rw [show lo + (hi - lo) = hi by omega]; exact h0)
    (fun i s w h1 h2 hp => hs i s w h1 (by omega) hp)
  exact this.mono hq

/-- `w'` is `w` after some draws. -/
def Drawn (w w' : World) : Prop := ∃ k, w' = w.adv k

theorem Drawn.refl (w : World) : Drawn w w := ⟨0, (adv_zero w).symm⟩

theorem Drawn.step {w w' : World} (h : Drawn w w') : Drawn w (w'.adv 1) := by
  obtain ⟨k, rfl⟩ := h
  exact ⟨k + 1, adv_adv _ _ _⟩

theorem Drawn.trans {w w' w'' : World} (h : Drawn w w') (h' : Drawn w' w'') : Drawn w w'' := by
  obtain ⟨k, rfl⟩ := h
  obtain ⟨l, rfl⟩ := h'
  exact ⟨k + l, adv_adv _ _ _⟩

theorem OkM_draw {w : World} {Q : BitVec 32 → World → Prop} (h : Q (w.draw 0) (w.adv 1)) :
    OkM cus_random w Q := by
  unfold OkM
  rw [cus_random_run', Ok.ok_iff]; exact h

theorem umod_two (r : BitVec 32) : umod r 2 = .ok (r.umod 2) := by
  unfold umod; rw [if_neg (by decide)]

theorem Ok_umod (r : BitVec 32) (d : Nat) (hd : 0 < d) (hd' : d < 2 ^ 32) :
    Ok (umod r (BitVec.ofNat 32 d)) (fun q => q.toNat < d) := by
  have hn : (BitVec.ofNat 32 d).toNat = d := by
    rw [BitVec.toNat_ofNat, Nat.mod_eq_of_lt hd']
  unfold umod
  rw [if_neg (by intro e; rw [e] at hn; simp at hn; omega), Ok.ok_iff,
    BitVec.umod_eq, BitVec.toNat_umod, hn]
  exact Nat.mod_lt _ hd

/-- The exchange step `p = i + 1 + random % (N - i); exchange rows i and p`. -/
theorem exchange_ok {α : Type} {N : Nat} (hN : N < 2 ^ 32) (m : α → Mat (N + 1)) (G : α → Prop)
    (swp : α → Nat → Nat → C α)
    (hswp : ∀ (i j : Fin (N + 1)) A, i ≠ j → Ok (swp A i j) (fun A' =>
      m A' = swapR i j (m A) ∧ (G A → G A')))
    (i : Nat) (hi : i < N) (A : α) (w : World) :
    OkM (do
      let r ← cus_random
      liftC do
        let p := i + 1 + (← umod r (BitVec.ofNat 32 (N - i))).toNat
        swp A i p) w (fun A' w' => (m A').det = (m A).det ∧ (G A → G A') ∧ w' = w.adv 1) := by
  rw [OkM.bind_iff]
  refine OkM_draw ?_
  rw [OkM.liftC_iff]
  refine Ok.bind (Ok_umod _ (N - i) (by omega) (by omega)) ?_
  intro q hq
  refine (hswp ⟨i, by omega⟩ ⟨i + 1 + q.toNat, by omega⟩ A (by
    intro e; have := congrArg Fin.val e; simp at this; omega)).mono ?_
  rintro A' ⟨hm, hG⟩
  exact ⟨by rw [hm, det_swapR], hG, rfl⟩

/-- Reverse Gaussian elimination keeps the determinant. -/
theorem rge_loop {α : Type} {N : Nat} (hN : N < 2 ^ 32) (m : α → Mat (N + 1)) (G : α → Prop)
    (add : α → Nat → Nat → C α) (swp : α → Nat → Nat → C α)
    (hadd : ∀ (j i : Fin (N + 1)) A, j ≠ i → Ok (add A j i) (fun A' =>
      m A' = addR j i (m A) ∧ (G A → G A')))
    (hswp : ∀ (i j : Fin (N + 1)) A, i ≠ j → Ok (swp A i j) (fun A' =>
      m A' = swapR i j (m A) ∧ (G A → G A')))
    (A : α) (w : World) :
    OkM (forDown (N + 1) 0 A fun i A => do
      let A ← forUp 0 (N + 1) A fun j A => do
        if j ≠ i then
          let r ← cus_random
          liftC do if (← umod r 2) != 0 then add A j i else pure A
        else pure A
      if i < N then
        let r ← cus_random
        liftC do
          let p := i + 1 + (← umod r (BitVec.ofNat 32 (N - i))).toNat
          swp A i p
      else pure A) w
      (fun A' w' => (m A').det = (m A).det ∧ (G A → G A') ∧ Drawn w w') := by
  refine OkM.forDown (fun _ A' w' => (m A').det = (m A).det ∧ (G A → G A') ∧ Drawn w w')
    (Nat.zero_le _) ⟨rfl, fun h => h, Drawn.refl w⟩ ?_ (fun _ _ h => h)
  rintro i A1 w1 - hi h1
  rw [OkM.bind_iff]
  refine OkM.forUp (fun _ A' w' => (m A').det = (m A).det ∧ (G A → G A') ∧ Drawn w w')
    (Nat.zero_le _) h1 ?_ ?_
  · rintro j A2 w2 - hj ⟨hd, hG, hw⟩
    by_cases hji : j ≠ i
    · rw [if_pos hji, OkM.bind_iff]
      refine OkM_draw ?_
      rw [OkM.liftC_iff, umod_two, C_pure_bind]
      rw [Ok.ite_iff]
      refine ⟨fun _ => ?_, fun _ => (Ok.pure_iff _ _).2 ⟨hd, hG, hw.step⟩⟩
      refine (hadd ⟨j, hj⟩ ⟨i, hi⟩ A2 (by intro e; exact hji (congrArg Fin.val e))).mono ?_
      rintro A3 ⟨hm, hG3⟩
      refine ⟨?_, fun h => hG3 (hG h), hw.step⟩
      rw [hm, det_addR (by intro e; exact hji (congrArg Fin.val e)), hd]
    · rw [if_neg hji]; exact (OkM.pure_iff _ _ _).2 ⟨hd, hG, hw⟩
  · rintro A2 w2 ⟨hd, hG, hw⟩
    rw [OkM.ite_iff]
    refine ⟨fun hiN => ?_, fun _ => (OkM.pure_iff _ _ _).2 ⟨hd, hG, hw⟩⟩
    refine (exchange_ok hN m G swp hswp i hiN A2 w2).mono ?_
    rintro A3 w3 ⟨h3, hG3, rfl⟩
    exact ⟨h3.trans hd, fun h => hG3 (hG h), hw.step⟩

/-- The exchange loop alone keeps the determinant. -/
theorem exchange_loop {α : Type} {N : Nat} (hN : N < 2 ^ 32) (m : α → Mat (N + 1)) (G : α → Prop)
    (swp : α → Nat → Nat → C α)
    (hswp : ∀ (i j : Fin (N + 1)) A, i ≠ j → Ok (swp A i j) (fun A' =>
      m A' = swapR i j (m A) ∧ (G A → G A')))
    (A : α) (w : World) :
    OkM (forUp 0 N A fun i A => do
      let r ← cus_random
      liftC do
        let p := i + 1 + (← umod r (BitVec.ofNat 32 (N - i))).toNat
        swp A i p) w
      (fun A' w' => (m A').det = (m A).det ∧ (G A → G A') ∧ Drawn w w') := by
  refine OkM.forUp (fun _ A' w' => (m A').det = (m A).det ∧ (G A → G A') ∧ Drawn w w')
    (Nat.zero_le _) ⟨rfl, fun h => h, Drawn.refl w⟩ ?_ (fun _ _ h => h)
  rintro i A1 w1 - hi ⟨hd, hG, hw⟩
  refine (exchange_ok hN m G swp hswp i hi A1 w1).mono ?_
  rintro A3 w3 ⟨h3, hG3, rfl⟩
  exact ⟨h3.trans hd, fun h => hG3 (hG h), hw.step⟩

/-! ## Exchanges through temporaries that are filled first -/

theorem rd2_step {α β : Type} {n l : Nat} {A : Vector (Vector α l) n} {i k : Nat} {f : α → C β}
    {Q : β → Prop} (hi : i < n) (hk : k < l) (h : Ok (f A[i][k]) Q) : Ok (rd2 A i k >>= f) Q := by
  rw [rd2_ok _ _ _ hi hk, C_pure_bind]; exact h

theorem wr2_step {α β : Type} {n l : Nat} {A : Vector (Vector α l) n} {i k : Nat} {x : α}
    {f : Vector (Vector α l) n → C β} {Q : β → Prop} (hi : i < n) (hk : k < l)
    (h : ∀ A' : Vector (Vector α l) n, (∀ r (hr : r < n) t (ht : t < l),
      A'[r][t] = if r = i ∧ t = k then x else A[r][t]) → Ok (f A') Q) :
    Ok (wr2 A i k x >>= f) Q := by
  rw [Ok.bind_iff, Ok_wr2]
  exact ⟨hi, hk, h _ fun r hr t ht => getElem_set2 A i k r t hi hk x hr ht⟩

theorem wr2_last {α : Type} {n l : Nat} {A : Vector (Vector α l) n} {i k : Nat} {x : α}
    {Q : Vector (Vector α l) n → Prop} (hi : i < n) (hk : k < l)
    (h : ∀ A' : Vector (Vector α l) n, (∀ r (hr : r < n) t (ht : t < l),
      A'[r][t] = if r = i ∧ t = k then x else A[r][t]) → Q A') :
    Ok (wr2 A i k x) Q := by
  rw [Ok_wr2]
  exact ⟨hi, hk, h _ fun r hr t ht => getElem_set2 A i k r t hi hk x hr ht⟩

/-- The exchange through a temporary row of 2 words. -/
@[reducible] def swapT2 {n : Nat} (A : Vector (Vector (BitVec 64) 2) n) (i p : Nat) :
    C (Vector (Vector (BitVec 64) 2) n) := do
  let temp0 ← rd2 A i 0
  let temp1 ← rd2 A i 1
  let A ← wr2 A i 0 (← rd2 A p 0)
  let A ← wr2 A i 1 (← rd2 A p 1)
  let A ← wr2 A p 0 temp0
  wr2 A p 1 temp1

theorem swapT2_ok {n : Nat} (A : Vector (Vector (BitVec 64) 2) n) {i p : Nat} (hi : i < n)
    (hp : p < n) (hne : i ≠ p) :
    Ok (swapT2 A i p) (fun A' => ∀ r (hr : r < n) t (ht : t < 2),
        A'[r][t] = if t ∈ [0, 1] then
          (if r = i then A[p][t] else if r = p then A[i][t] else A[r][t]) else A[r][t]) := by
  refine rd2_step hi (by omega) (rd2_step hi (by omega) ?_)
  refine rd2_step hp (by omega) (wr2_step hi (by omega) fun A1 h1 => ?_)
  refine rd2_step hp (by omega) (wr2_step hi (by omega) fun A2 h2 => ?_)
  refine wr2_step hp (by omega) fun A3 h3 => ?_
  refine wr2_last hp (by omega) fun A4 h4 => ?_
  intro r hr t ht
  rw [if_pos (by simp; omega), h4 r hr t ht, h3 r hr t ht, h2 r hr t ht, h1 r hr t ht,
    h1 p hp 1 (by omega)]
  obtain rfl | rfl : t = 0 ∨ t = 1 := by omega
  all_goals
    by_cases h1 : r = i
    · subst h1; simp [hne]
    · by_cases h2 : r = p
      · subst h2; simp [Ne.symm hne]
      · simp [h1, h2]

/-- The exchange through a temporary row of 4 words. -/
@[reducible] def swapT4 {n : Nat} (A : Vector (Vector (BitVec 64) 4) n) (i p : Nat) :
    C (Vector (Vector (BitVec 64) 4) n) := do
  let temp0 ← rd2 A i 0
  let temp1 ← rd2 A i 1
  let temp2 ← rd2 A i 2
  let temp3 ← rd2 A i 3
  let A ← wr2 A i 0 (← rd2 A p 0)
  let A ← wr2 A i 1 (← rd2 A p 1)
  let A ← wr2 A i 2 (← rd2 A p 2)
  let A ← wr2 A i 3 (← rd2 A p 3)
  let A ← wr2 A p 0 temp0
  let A ← wr2 A p 1 temp1
  let A ← wr2 A p 2 temp2
  wr2 A p 3 temp3

theorem swapT4_ok {n : Nat} (A : Vector (Vector (BitVec 64) 4) n) {i p : Nat} (hi : i < n)
    (hp : p < n) (hne : i ≠ p) :
    Ok (swapT4 A i p) (fun A' => ∀ r (hr : r < n) t (ht : t < 4),
        A'[r][t] = if t ∈ [0, 1, 2, 3] then
          (if r = i then A[p][t] else if r = p then A[i][t] else A[r][t]) else A[r][t]) := by
  refine rd2_step hi (by omega) (rd2_step hi (by omega) ?_)
  refine rd2_step hi (by omega) (rd2_step hi (by omega) ?_)
  refine rd2_step hp (by omega) (wr2_step hi (by omega) fun A1 h1 => ?_)
  refine rd2_step hp (by omega) (wr2_step hi (by omega) fun A2 h2 => ?_)
  refine rd2_step hp (by omega) (wr2_step hi (by omega) fun A3 h3 => ?_)
  refine rd2_step hp (by omega) (wr2_step hi (by omega) fun A4 h4 => ?_)
  refine wr2_step hp (by omega) fun A5 h5 => ?_
  refine wr2_step hp (by omega) fun A6 h6 => ?_
  refine wr2_step hp (by omega) fun A7 h7 => ?_
  refine wr2_last hp (by omega) fun A8 h8 => ?_
  have k1 : A1[p][1] = A[p][1] := by rw [h1 p hp 1 (by omega), if_neg (by omega)]
  have k2 : A2[p][2] = A[p][2] := by
    rw [h2 p hp 2 (by omega), if_neg (by omega), h1 p hp 2 (by omega), if_neg (by omega)]
  have k3 : A3[p][3] = A[p][3] := by
    rw [h3 p hp 3 (by omega), if_neg (by omega), h2 p hp 3 (by omega), if_neg (by omega),
      h1 p hp 3 (by omega), if_neg (by omega)]
  rw [k1] at h2
  rw [k2] at h3
  rw [k3] at h4
  intro r hr t ht
  rw [if_pos (by simp; omega), h8 r hr t ht, h7 r hr t ht, h6 r hr t ht, h5 r hr t ht,
    h4 r hr t ht, h3 r hr t ht, h2 r hr t ht, h1 r hr t ht]
  clear h1 h2 h3 h4 h5 h6 h7 h8 k1 k2 k3
  obtain rfl | rfl | rfl | rfl : t = 0 ∨ t = 1 ∨ t = 2 ∨ t = 3 := by omega
  all_goals
    by_cases h1 : r = i
    · subst h1; simp [hne]
    · by_cases h2 : r = p
      · subst h2; simp [Ne.symm hne]
      · simp [h1, h2]

end WB
