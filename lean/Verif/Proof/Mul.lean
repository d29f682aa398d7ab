import Verif.Proof.Parity
import Verif.Proof.Simple

/-!
# Loops that accumulate a product bit by bit (helper lemmas)
-/
namespace WB
open Matrix

/-- A loop whose `j`-th iteration adds `d j` to entry `j` of a vector. -/
theorem accum {α : Type} {n lo hi : Nat} (view : α → Fin n → ZMod 2) (F : α → Prop)
    (d : Fin n → ZMod 2) (body : Nat → α → C α) (hle : lo ≤ hi) (hhi : hi ≤ n)
    (hb : ∀ j (h : j < n), lo ≤ j → j < hi → ∀ a, F a →
      Ok (body j a) (fun a' => F a' ∧
        ∀ c : Fin n, view a' c = view a c + if c.val = j then d ⟨j, h⟩ else 0))
    {s : α} (hF : F s) (hs : ∀ c : Fin n, view s c = if c.val < lo then d c else 0) :
    Ok (forUp lo hi s body)
      (fun s' => F s' ∧ ∀ c : Fin n, view s' c = if c.val < hi then d c else 0) := by
  refine Ok.forUp (fun i s' => F s' ∧ ∀ c : Fin n, view s' c = if c.val < i then d c else 0)
    hle ⟨hF, hs⟩ ?_ (fun _ h => h)
  rintro i s' h1 h2 ⟨hF', hv⟩
  refine (hb i (by omega) h1 h2 s' hF').mono ?_
  rintro s'' ⟨hF'', hv'⟩
  refine ⟨hF'', fun c => ?_⟩
  rw [hv' c, hv c]
  by_cases e : c.val = i
  · subst e; simp
  · rw [if_neg e, add_zero]
    by_cases h : c.val < i
    · rw [if_pos h, if_pos (by omega)]
    · rw [if_neg h, if_neg (by omega)]

theorem z2_ite (x : ZMod 2) : (if x = 1 then (1 : ZMod 2) else 0) = x := by
  rcases z2_cases x with h | h <;> rw [h] <;> decide

/-- `x ^= id[j]` on a row stored in one word. -/
theorem flipS {n w : Nat} {id : Vector (BitVec w) n} (hid : IdOK n id) (x : BitVec w) {j : Nat}
    (hj : j < n) (c : Fin n) :
    bitF (bitS n (x ^^^ id[j]) c) = bitF (bitS n x c) + if c.val = j then 1 else 0 := by
  rw [bitS_xor, bitF_xor, hid.2 j hj]
  congr 1
  unfold bitS
  rw [BitVec.getLsbD_twoPow]
  have hw := hid.1
  by_cases e : c.val = j
  · rw [if_pos e, e]; simp; omega
  · rw [if_neg e, bitF_eq_zero]
    have := c.2
    simp
    omega

theorem highS {n w : Nat} {id : Vector (BitVec w) n} (hid : IdOK n id) {x : BitVec w} {j : Nat}
    (hj : j < n) (hx : ∀ k, n ≤ k → x.getLsbD k = false) :
    ∀ k, n ≤ k → (x ^^^ id[j]).getLsbD k = false := by
  intro k hk
  rw [BitVec.getLsbD_xor, hx k hk, hid.2 j hj, BitVec.getLsbD_twoPow]
  simp; omega

/-- The loop of `MatMulVecM*` and `MatMulNumM*` for rows stored in one word. -/
theorem mulVecS {n w : Nat} {id : Vector (BitVec w) n} (hid : IdOK n id) 
    (body : Nat → BitVec w → C (BitVec w)) (d : Fin n → ZMod 2)
    (hd : ∀ i (h : i < n) ans, ∃ k : Nat,
      body i ans = (do
        if ((k % 2 : Nat) : Int) != 0 then pure (ans ^^^ (← rd id i)) else pure ans) ∧
      (k : ZMod 2) = d ⟨i, h⟩) :
    Ok (forUp 0 n (0 : BitVec w) body)
      (fun ans => vecOf n (bitS n) ans = d ∧ ∀ k, n ≤ k → ans.getLsbD k = false) := by
  refine (accum (fun x => vecOf n (bitS n) x) (fun x => ∀ k, n ≤ k → x.getLsbD k = false) d _
    (Nat.zero_le _) (Nat.le_refl _) ?_ ?_ ?_).mono ?_
  · intro j hj _ _ x hF
    obtain ⟨k, hk, hkd⟩ := hd j hj x
    rw [hk, rd_ok _ _ hj, C_pure_bind]
    rw [Ok.ite_iff, Ok.pure_iff, Ok.pure_iff, par_ne_zero, hkd]
    constructor
    · intro h1
      refine ⟨highS hid hj hF, fun c => ?_⟩
      rw [h1]
      exact flipS hid x hj c
    · intro h1
      refine ⟨hF, fun c => ?_⟩
      rw [z2_ne_one.1 h1]; simp
  · intro k _; simp
  · intro c; simp [vecOf, bitS]
  · rintro x ⟨hF, hv⟩
    refine ⟨?_, hF⟩
    funext c
    rw [hv c, if_pos c.2]

/-- The loops of `MatMulMatM*` for rows stored in one word. -/
theorem mulMatS {n w : Nat} {id : Vector (BitVec w) n} (hid : IdOK n id) 
    (body : Nat → Nat → Vector (BitVec w) n → C (Vector (BitVec w) n)) (d : Mat n)
    (hd : ∀ i j (h : i < n) (h' : j < n) M, ∃ k : Nat,
      body i j M = (do
        if ((k % 2 : Nat) : Int) != 0 then wr M i ((← rd M i) ^^^ (← rd id j)) else pure M) ∧
      (k : ZMod 2) = d ⟨i, h⟩ ⟨j, h'⟩) :
    Ok (forUp 0 n (Vector.replicate n (0 : BitVec w)) fun i M => forUp 0 n M (body i))
      (fun C => matOf n (bitS n) C = d ∧ ∀ i (h : i < n) k, n ≤ k → C[i].getLsbD k = false) := by
  let inv : Nat → Vector (BitVec w) n → Prop := fun i M =>
    (∀ r c : Fin n, bitF (bitS n M[r] c) = if r.val < i then d r c else 0) ∧
    ∀ r (h : r < n) k, n ≤ k → M[r].getLsbD k = false
  refine Ok.forUp inv (Nat.zero_le _) ?_ ?_ ?_
  · refine ⟨fun r c => ?_, fun r h k _ => ?_⟩
    · simp [bitS]
    · simp
  · rintro i M - hi ⟨hM, hH⟩
    refine (accum (n := n) (fun M : Vector (BitVec w) n => fun c => bitF (bitS n M[i] c))
      (fun M' => (∀ r (h : r < n), r ≠ i → M'[r] = M[r]) ∧
        ∀ r (h : r < n) k, n ≤ k → M'[r].getLsbD k = false) (d ⟨i, hi⟩) _
      (Nat.zero_le _) (Nat.le_refl _) ?_ ?_ ?_).mono ?_
    · rintro j hj - - M' ⟨hF, hF'⟩
      obtain ⟨k, hk, hkd⟩ := hd i j hi hj M'
      rw [hk, rd_ok _ _ hi, C_pure_bind, rd_ok _ _ hj, C_pure_bind]
      rw [Ok.ite_iff, wr_ok _ _ _ hi, Ok.ok_iff, Ok.pure_iff, par_ne_zero, hkd]
      constructor
      · intro h1
        refine ⟨⟨fun r hr hne => ?_, fun r hr => ?_⟩, fun c => ?_⟩
        · rw [Vector.getElem_set_ne _ _ (Ne.symm hne)]; exact hF r hr hne
        · rw [Vector.getElem_set]
          split
          · exact highS hid hj (hF' i hi)
          · exact hF' r hr
        · rw [h1, Vector.getElem_set_self]
          exact flipS hid _ hj c
      · intro h1
        refine ⟨⟨hF, hF'⟩, fun c => ?_⟩
        rw [z2_ne_one.1 h1]; simp
    · exact ⟨fun _ _ _ => rfl, hH⟩
    · intro c
      have := hM ⟨i, hi⟩ c
      simpa using this
    · rintro M' ⟨⟨hF, hF'⟩, hv⟩
      refine ⟨fun r c => ?_, hF'⟩
      by_cases e : r.val = i
      · subst e
        have := hv c
        rw [if_pos c.2] at this
        rw [if_pos (Nat.lt_succ_self _)]
        exact this
      · have h2 := hM r c
        have : M'[r] = M[r] := hF r.val r.2 e
        rw [this, h2]
        by_cases h : r.val < i
        · rw [if_pos h, if_pos (by omega)]
        · rw [if_neg h, if_neg (by omega)]
  · rintro M ⟨hM, hH⟩
    refine ⟨?_, hH⟩
    rw [matOf_ext_iff]
    intro r c
    rw [hM r c, if_pos r.2]

/-! ## Rows stored in several words -/

/-- Flip bit `j` of a multi-word row. -/
theorem flipW {l n : Nat} (hn : n = 64 * l) (x : Vector (BitVec 64) l) {p j : Nat} (hp : p < l)
    (hj : 64 * p ≤ j) (hj' : j < 64 * p + 64) (c : Fin n) :
    bitF (bitW (x.set p (x[p] ^^^ BitVec.twoPow 64 (63 - (j - 64 * p)))) c) =
      bitF (bitW x c) + if c.val = j then 1 else 0 := by
  have hc := c.2
  have hc' : c.val / 64 < l := by omega
  rw [bitW_eq _ _ hc', bitW_eq _ _ hc', Vector.getElem_set]
  by_cases e : p = c.val / 64
  · subst e
    rw [if_pos rfl, BitVec.getLsbD_xor, bitF_xor, BitVec.getLsbD_twoPow]
    congr 1
    by_cases e' : c.val = j
    · rw [if_pos e', bitF_eq_one]; simp; omega
    · rw [if_neg e', bitF_eq_zero]; simp; omega
  · rw [if_neg e, if_neg (by omega), add_zero]

/-- One phase of the loop of `MatMulVecM128/256`. -/
theorem mulVecW {l n p lo hi : Nat} (hn : n = 64 * l) (hp : p < l) (hlo : lo = 64 * p) (hhi : hi = 64 * p + 64)
    (body : Nat → Vector (BitVec 64) l × Vector (BitVec 64) l →
      C (Vector (BitVec 64) l × Vector (BitVec 64) l)) (d : Fin n → ZMod 2)
    (hd : ∀ i (h : i < n) s, ∃ (k : Nat) (t' : Vector (BitVec 64) l),
      body i s = (do
        if ((k % 2 : Nat) : Int) != 0 then
          let ans ← wr s.1 p ((← rd s.1 p) ^^^ (← rd idM64 (i - lo)))
          pure (ans, t')
        else pure (s.1, t')) ∧ (k : ZMod 2) = d ⟨i, h⟩)
    {s : Vector (BitVec 64) l × Vector (BitVec 64) l}
    (hs : ∀ c : Fin n, bitF (bitW s.1 c) = if c.val < lo then d c else 0) :
    Ok (forUp lo hi s body)
      (fun s' => ∀ c : Fin n, bitF (bitW s'.1 c) = if c.val < hi then d c else 0) := by
  subst hlo hhi
  refine (accum (n := n) (fun s : Vector (BitVec 64) l × Vector (BitVec 64) l =>
    fun c : Fin n => bitF (bitW s.1 c)) (fun _ => True) d _
    (by omega) (by omega) ?_ trivial hs).mono (fun _ h => h.2)
  intro j hj h1 h2 s _
  obtain ⟨k, t', hk, hkd⟩ := hd j hj s
  rw [hk]
  rw [rd_ok _ _ hp, C_pure_bind, rd_idM64 (by omega), C_pure_bind, wr_ok _ _ _ hp, C_pure_bind,
    Ok.ite_iff, Ok.pure_iff, Ok.pure_iff, par_ne_zero, hkd]
  constructor
  · intro e
    refine ⟨trivial, fun c => ?_⟩
    rw [e]
    exact flipW hn s.1 hp h1 h2 c
  · intro e
    refine ⟨trivial, fun c => ?_⟩
    rw [z2_ne_one.1 e]; simp

/-- One phase of the inner loop of `MatMulMatM128/256`. -/
theorem mulMatW {l n p i lo up : Nat} (hn : n = 64 * l) (hp : p < l) (hlo : lo = 64 * p) (hhi : up = 64 * p + 64) (hi : i < n)
    (body : Nat → Vector (Vector (BitVec 64) l) n × Vector (BitVec 64) l →
      C (Vector (Vector (BitVec 64) l) n × Vector (BitVec 64) l)) (d : Fin n → ZMod 2)
    (hd : ∀ j (h : j < n) s, ∃ (k : Nat) (t' : Vector (BitVec 64) l),
      body j s = (do
        if ((k % 2 : Nat) : Int) != 0 then
          let Mat ← wr2 s.1 i p ((← rd2 s.1 i p) ^^^ (← rd idM64 (j - lo)))
          pure (Mat, t')
        else pure (s.1, t')) ∧ (k : ZMod 2) = d ⟨j, h⟩)
    {M0 : Vector (Vector (BitVec 64) l) n}
    {s : Vector (Vector (BitVec 64) l) n × Vector (BitVec 64) l}
    (hF : ∀ r (h : r < n), r ≠ i → s.1[r] = M0[r])
    (hs : ∀ c : Fin n, bitF (bitW s.1[i] c) = if c.val < lo then d c else 0) :
    Ok (forUp lo up s body)
      (fun s' => (∀ r (h : r < n), r ≠ i → s'.1[r] = M0[r]) ∧
        ∀ c : Fin n, bitF (bitW s'.1[i] c) = if c.val < up then d c else 0) := by
  subst hlo hhi
  refine accum (n := n) (fun s : Vector (Vector (BitVec 64) l) n × Vector (BitVec 64) l =>
    fun c : Fin n => bitF (bitW s.1[i] c)) (fun s => ∀ r (h : r < n), r ≠ i → s.1[r] = M0[r]) d _
    (by omega) (by omega) ?_ hF hs
  intro j hj h1 h2 s hF
  obtain ⟨k, t', hk, hkd⟩ := hd j hj s
  rw [hk]
  rw [rd2_ok _ _ _ hi hp, C_pure_bind, rd_idM64 (by omega), C_pure_bind, wr2_ok _ _ _ _ hi hp,
    C_pure_bind, Ok.ite_iff, Ok.pure_iff, Ok.pure_iff, par_ne_zero, hkd]
  constructor
  · intro e
    refine ⟨fun r hr hne => ?_, fun c => ?_⟩
    · simp only
      rw [Vector.getElem_set_ne _ _ (Ne.symm hne)]; exact hF r hr hne
    · rw [e]
      simp only [Vector.getElem_set_self]
      exact flipW hn s.1[i] hp h1 h2 c
  · intro e
    refine ⟨hF, fun c => ?_⟩
    rw [z2_ne_one.1 e]; simp

/-- The outer loop of `MatMulMatM128/256`, given what one iteration does to its row. -/
theorem mulMatOuter {l n : Nat}
    (body : Nat → Vector (Vector (BitVec 64) l) n × Vector (BitVec 64) l →
      C (Vector (Vector (BitVec 64) l) n × Vector (BitVec 64) l)) (d : Mat n)
    (hb : ∀ i (hi : i < n) s, (∀ c : Fin n, bitF (bitW s.1[i] c) = 0) →
      Ok (body i s) (fun s' => (∀ r (h : r < n), r ≠ i → s'.1[r] = s.1[r]) ∧
        ∀ c : Fin n, bitF (bitW s'.1[i] c) = d ⟨i, hi⟩ c))
    (t : Vector (BitVec 64) l) :
    Ok (forUp 0 n (Vector.replicate n (Vector.replicate l (0 : BitVec 64)), t) body)
      (fun s => matOf n bitW s.1 = d) := by
  refine Ok.forUp (fun i s => ∀ r c : Fin n,
    bitF (bitW s.1[r] c) = if r.val < i then d r c else 0) (Nat.zero_le _) ?_ ?_ ?_
  · intro r c
    simp only [bitW, Nat.not_lt_zero, if_false, bitF_eq_zero]
    by_cases h : c.val / 64 < l <;> simp [h]
  · intro i s _ hi h
    refine (hb i hi s (fun c => by have := h ⟨i, hi⟩ c; simpa using this)).mono ?_
    rintro s' ⟨hF, hv⟩ r c
    by_cases e : r.val = i
    · subst e
      rw [if_pos (Nat.lt_succ_self _)]
      exact hv c
    · have h2 := h r c
      have : s'.1[r] = s.1[r] := hF r.val r.2 e
      rw [this, h2]
      by_cases h : r.val < i
      · rw [if_pos h, if_pos (by omega)]
      · rw [if_neg h, if_neg (by omega)]
  · intro s h
    rw [matOf_ext_iff]
    intro r c
    rw [h r c, if_pos r.2]

end WB
