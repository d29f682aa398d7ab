import Verif.Model.LowMC
import Verif.Proof.LfsrSeq

/-!
# `getrandbit` of `LowMCMethod_text.cpp`
-/
namespace WB.lowmc

/-- The state as a number. -/
def stOf (x : Nat) : BitVec 80 := BitVec.ofNat 80 x

theorem stOf_toNat (st : BitVec 80) : stOf st.toNat = st := BitVec.ofNat_toNat 80 st |>.trans (by simp)

theorem toNat_stOf {x : Nat} (hx : x < 2 ^ 80) : (stOf x).toNat = x := by
  unfold stOf
  rw [BitVec.toNat_ofNat, Nat.mod_eq_of_lt hx]

theorem stOf_bit {x : Nat} (i : Nat) (hi : i < 80) : (stOf x).getLsbD i = x.testBit i := by
  unfold stOf
  rw [BitVec.getLsbD_ofNat, decide_eq_true hi, Bool.true_and]

theorem LM_bind {α β : Type} {m : LM α} {f : α → LM β} {st st' : BitVec 80} {a : α}
    (h : m st = .ok (a, st')) : (m >>= f) st = f a st' := by
  show (do let (a, s) ← m st; f a s) = _
  rw [h]
  rfl

theorem LM_bind_err {α β : Type} {m : LM α} {f : α → LM β} {st : BitVec 80} {e : Fault}
    (h : m st = .error e) : (m >>= f) st = .error e := by
  show (do let (a, s) ← m st; f a s) = _
  rw [h]
  rfl

attribute [local irreducible] TN

theorem clock_run {x : Nat} (hx : x < 2 ^ 80) :
    clock (stOf x) = .ok ((TN x).testBit 79, stOf (TN x)) := by
  have hb : ((stOf x).getLsbD 0 ^^ (stOf x).getLsbD 13 ^^ (stOf x).getLsbD 23 ^^ (stOf x).getLsbD 38 ^^
      (stOf x).getLsbD 51 ^^ (stOf x).getLsbD 62) = (TN x).testBit 79 := by
    rw [TN_bit_top hx]
    rw [stOf_bit _ (by norm_num), stOf_bit _ (by norm_num), stOf_bit _ (by norm_num), stOf_bit _ (by norm_num),
      stOf_bit _ (by norm_num), stOf_bit _ (by norm_num)]
  have hs : ((stOf x) >>> 1) ||| ((BitVec.ofBool ((TN x).testBit 79)).setWidth 80 <<< 79) = stOf (TN x) := by
    apply BitVec.eq_of_getLsbD_eq
    intro i hi
    rw [stOf_bit i hi, BitVec.getLsbD_or, BitVec.getLsbD_ushiftRight, BitVec.getLsbD_shiftLeft]
    by_cases h79 : i < 79
    · rw [decide_eq_true h79, TN_bit_lt _ h79, stOf_bit _ (by omega)]
      simp [Nat.add_comm]
    · have : i = 79 := by omega
      subst this
      have h0 : (stOf x).getLsbD (1 + 79) = false := BitVec.getLsbD_of_ge _ _ (by norm_num)
      rw [h0]
      simp
  unfold clock
  show Except.ok (_, _) = _
  rw [hb, hs]

theorem pairLoop_run {x y m : Nat} (hx : x ∈ nz) (h : RetIn SN Chosen m x y) :
    ∀ fuel, m < fuel → pairLoop fuel (stOf x) = .ok (y.testBit 79, stOf y) := by
  induction m generalizing x with
  | zero =>
    intro fuel hf
    obtain ⟨f, rfl⟩ : ∃ f, fuel = f + 1 := ⟨fuel - 1, by omega⟩
    obtain ⟨h1, h2, _⟩ := h
    have h1 : y = SN x := h1
    unfold SN at h1
    unfold pairLoop
    have hl := (mem_nz.1 hx).2
    rw [LM_bind (clock_run hl), LM_bind (clock_run (TN_lt hl))]
    have hc : (TN x).testBit 79 = true := by
      rw [← TN_bit_lt _ (by norm_num : 78 < 79), ← h1]; exact h2
    rw [hc, ← h1]
    rfl
  | succ m ih =>
    intro fuel hf
    obtain ⟨f, rfl⟩ : ∃ f, fuel = f + 1 := ⟨fuel - 1, by omega⟩
    obtain ⟨h1, h2, h3⟩ := h
    unfold pairLoop
    have hl := (mem_nz.1 hx).2
    rw [LM_bind (clock_run hl), LM_bind (clock_run (TN_lt hl))]
    have hc : (TN x).testBit 79 = false := by
      have := h3 0 (by omega)
      rw [← TN_bit_lt _ (by norm_num : 78 < 79)]
      exact Bool.eq_false_iff.2 this
    rw [hc]
    show pairLoop f (stOf (SN x)) = _
    refine ih (SN_cycle.maps x hx) ⟨h1, h2, fun j hj => ?_⟩ f (by omega)
    exact h3 (j + 1) (by omega)

theorem pairLoop_short {x m : Nat} (hx : x ∈ nz) (h : ∀ j < m, ¬ Chosen (SN^[j + 1] x)) :
    pairLoop m (stOf x) = .error .diverge := by
  induction m generalizing x with
  | zero => rfl
  | succ m ih =>
    unfold pairLoop
    have hl := (mem_nz.1 hx).2
    rw [LM_bind (clock_run hl), LM_bind (clock_run (TN_lt hl))]
    have hc : (TN x).testBit 79 = false := by
      have := h 0 (by omega)
      rw [← TN_bit_lt _ (by norm_num : 78 < 79)]
      exact Bool.eq_false_iff.2 this
    rw [hc]
    show pairLoop m (stOf (SN x)) = _
    exact ih (SN_cycle.maps x hx) (fun j hj => h (j + 1) (by omega))

/-- The state from which the loop of `getrandbit` starts. -/
def startOf (st : BitVec 80) : Nat := if st = 0 then TN^[160] (2 ^ 80 - 1) else st.toNat

theorem ones_nz : (2 ^ 80 - 1) ∈ nz := mem_nz.2 ⟨by norm_num, by norm_num⟩

theorem startOf_nz (st : BitVec 80) : startOf st ∈ nz := by
  unfold startOf
  split
  · exact TN_cycle.iter ones_nz 160
  · rename_i h
    refine mem_nz.2 ⟨fun h0 => h ?_, st.isLt⟩
    exact BitVec.eq_of_toNat_eq h0

theorem ones_eq : BitVec.allOnes 80 = stOf (2 ^ 80 - 1) := by
  apply BitVec.eq_of_toNat_eq
  rw [toNat_stOf (by norm_num), BitVec.toNat_allOnes]

theorem foldlM_LM {σ : Type} (f : Nat → σ → LM σ) (S : Nat → σ) (t : Nat → BitVec 80) (n lo : Nat)
    (h : ∀ i, lo ≤ i → i < lo + n → f i (S i) (t i) = .ok (S (i + 1), t (i + 1))) :
    (List.range' lo n).foldlM (fun s i => f i s) (S lo) (t lo) = .ok (S (lo + n), t (lo + n)) := by
  induction n generalizing lo with
  | zero => rfl
  | succ n ih =>
    rw [List.range'_succ, List.foldlM_cons, LM_bind (h lo le_rfl (by omega)),
      ih (lo + 1) (fun i h1 h2 => h i (by omega) (by omega)), show lo + 1 + n = lo + (n + 1) by omega]

theorem forUp_LM {σ : Type} (f : Nat → σ → LM σ) (S : Nat → σ) (t : Nat → BitVec 80) (lo hi : Nat) (hl : lo ≤ hi)
    (h : ∀ i, lo ≤ i → i < hi → f i (S i) (t i) = .ok (S (i + 1), t (i + 1))) :
    forUp lo hi (S lo) f (t lo) = .ok (S hi, t hi) := by
  have := foldlM_LM f S t (hi - lo) lo (fun i h1 h2 => h i h1 (by omega))
  rw [show lo + (hi - lo) = hi by omega] at this
  exact this

theorem discard_run {x : Nat} (hx : x < 2 ^ 80) (n : Nat) :
    (forUp 0 n () fun _ _ => do let _ ← clock; pure () : LM Unit) (stOf x) = .ok ((), stOf (TN^[n] x)) :=
  forUp_LM _ (fun _ => ()) (fun k => stOf (TN^[k] x)) 0 n (Nat.zero_le _) fun i _ _ => by
    rw [LM_bind (clock_run (TNi_lt hx i)), Function.iterate_succ_apply']
    rfl

theorem getrandbit_start (fuel : Nat) (st : BitVec 80) :
    getrandbit fuel st = pairLoop fuel (stOf (startOf st)) := by
  unfold getrandbit startOf
  rw [LM_bind (show (get : LM (BitVec 80)) st = .ok (st, st) from rfl)]
  by_cases h : st = 0
  · rw [if_pos h, if_pos h]
    have h1 : (set (BitVec.allOnes 80) : LM PUnit) st = .ok ((), stOf (2 ^ 80 - 1)) := by
      rw [← ones_eq]
      rfl
    rw [LM_bind h1, LM_bind (discard_run (by norm_num) 160)]
  · rw [if_neg h, if_neg h, stOf_toNat]

theorem getrandbit_run {st : BitVec 80} {y m : Nat} (h : RetIn SN Chosen m (startOf st) y) (fuel : Nat)
    (hf : m < fuel) : getrandbit fuel st = .ok (y.testBit 79, stOf y) := by
  rw [getrandbit_start]
  exact pairLoop_run (startOf_nz st) h fuel hf

theorem first_ret {x : Nat} (hx : x ∈ nz) : ∃ m < 80, ∃ y, RetIn SN Chosen m x y := by
  have h := chosen_within hx
  have h' : ∃ m, Chosen (SN^[m + 1] x) := h.imp fun m hm => hm.2
  refine ⟨Nat.find h', ?_, _, rfl, Nat.find_spec h', fun j hj => Nat.find_min h' hj⟩
  obtain ⟨m, h1, h2⟩ := h
  exact lt_of_le_of_lt (Nat.find_min' h' h2) h1

/-- The state after a call. -/
noncomputable def nextOf (st : BitVec 80) : Nat := (first_ret (startOf_nz st)).choose_spec.2.choose

theorem nextOf_spec (st : BitVec 80) : ∃ m < 80, RetIn SN Chosen m (startOf st) (nextOf st) :=
  ⟨(first_ret (startOf_nz st)).choose, (first_ret (startOf_nz st)).choose_spec.1,
    (first_ret (startOf_nz st)).choose_spec.2.choose_spec⟩

theorem nextOf_nz (st : BitVec 80) : nextOf st ∈ nz := by
  obtain ⟨m, _, h, _⟩ := nextOf_spec st
  rw [h]
  exact SN_cycle.iter (startOf_nz st) _

theorem getrandbit_next (st : BitVec 80) (fuel : Nat) (hf : 80 ≤ fuel) :
    getrandbit fuel st = .ok ((nextOf st).testBit 79, stOf (nextOf st)) := by
  obtain ⟨m, hm, h⟩ := nextOf_spec st
  exact getrandbit_run h fuel (by omega)

/-- The states after `i` calls. -/
noncomputable def stateAt (st : BitVec 80) : Nat → BitVec 80
  | 0 => st
  | i + 1 => stOf (nextOf (stateAt st i))

/-- The bit returned by the call number `i`. -/
noncomputable def bitAt (st : BitVec 80) (i : Nat) : Bool := (nextOf (stateAt st i)).testBit 79

theorem stateAt_run (st : BitVec 80) (i fuel : Nat) (hf : 80 ≤ fuel) :
    getrandbit fuel (stateAt st i) = .ok (bitAt st i, stateAt st (i + 1)) :=
  getrandbit_next _ fuel hf

/-- The numbers of the states, starting in the loop of the call number `i`. -/
noncomputable def numAt (st : BitVec 80) (i : Nat) : Nat → Nat
  | 0 => startOf (stateAt st i)
  | j + 1 => nextOf (stateAt st (i + j))

theorem startOf_stOf {x : Nat} (hx : x ∈ nz) : startOf (stOf x) = x := by
  obtain ⟨h0, h1⟩ := mem_nz.1 hx
  unfold startOf
  rw [if_neg, toNat_stOf h1]
  intro h
  apply h0
  rw [← toNat_stOf h1, h]
  rfl

theorem numAt_ret (st : BitVec 80) (i : Nat) : ∀ j, ∃ m, RetIn SN Chosen m (numAt st i j) (numAt st i (j + 1)) := by
  intro j
  cases j with
  | zero =>
    obtain ⟨m, _, h⟩ := nextOf_spec (stateAt st i)
    exact ⟨m, h⟩
  | succ j =>
    obtain ⟨m, _, h⟩ := nextOf_spec (stateAt st (i + (j + 1)))
    refine ⟨m, ?_⟩
    have : startOf (stateAt st (i + (j + 1))) = numAt st i (j + 1) := startOf_stOf (nextOf_nz _)
    rw [this] at h
    exact h

theorem numAt_nz (st : BitVec 80) (i : Nat) : numAt st i 0 ∈ nz := startOf_nz _

theorem bits_balanced (st : BitVec 80) (i : Nat) :
    ((Finset.range (2 ^ 79)).filter fun j => bitAt st (i + j) = true).card = 2 ^ 78 := by
  have := ret_count SN_cycle (numAt_ret st i) (numAt_nz st i) (fun x => x.testBit 79 = true)
  rw [chosen_ones, chosen_card] at this
  exact this

theorem states_surj (st : BitVec 80) (i : Nat) (t : BitVec 80) (ht : t.getLsbD 78 = true) :
    ∃ j < 2 ^ 79, stateAt st (i + j + 1) = t := by
  have hmem : t.toNat ∈ nz.filter Chosen := by
    rw [Finset.mem_filter, mem_nz]
    have hc : t.toNat.testBit 78 = true := ht
    refine ⟨⟨?_, t.isLt⟩, hc⟩
    intro h
    rw [h] at hc
    simp at hc
  rw [← ret_surj SN_cycle (numAt_ret st i) (numAt_nz st i), chosen_card] at hmem
  obtain ⟨j, hj, h⟩ := Finset.mem_image.1 hmem
  refine ⟨j, Finset.mem_range.1 hj, ?_⟩
  have h : nextOf (stateAt st (i + j)) = t.toNat := h
  show stOf (nextOf (stateAt st (i + j))) = t
  rw [h, stOf_toNat]

theorem stOf_inj {x y : Nat} (hx : x ∈ nz) (hy : y ∈ nz) (h : stOf x = stOf y) : x = y := by
  rw [← toNat_stOf (mem_nz.1 hx).2, h, toNat_stOf (mem_nz.1 hy).2]

theorem states_inj (st : BitVec 80) (i j k : Nat) (hj : j < 2 ^ 79) (hk : k < 2 ^ 79)
    (h : stateAt st (i + j + 1) = stateAt st (i + k + 1)) : j = k := by
  have := ret_inj SN_cycle (numAt_ret st i) (numAt_nz st i)
  rw [chosen_card] at this
  refine this (by simpa using hj) (by simpa using hk) ?_
  exact stOf_inj (nextOf_nz _) (nextOf_nz _) h

theorem states_period (st : BitVec 80) (i : Nat) : stateAt st (i + 1 + 2 ^ 79) = stateAt st (i + 1) := by
  have h1 : numAt st (i + 1) 0 = nextOf (stateAt st i) := startOf_stOf (nextOf_nz _)
  have := ret_period SN_cycle (numAt_ret st (i + 1)) (numAt_nz st (i + 1)) (by
    rw [h1]
    obtain ⟨m, _, _, h, _⟩ := nextOf_spec (stateAt st i)
    exact h)
  rw [chosen_card, h1] at this
  obtain ⟨k, hk⟩ : ∃ k, 2 ^ 79 = k + 1 := ⟨2 ^ 79 - 1, by norm_num⟩
  rw [hk] at this ⊢
  have this : nextOf (stateAt st (i + 1 + k)) = nextOf (stateAt st i) := this
  show stOf (nextOf (stateAt st (i + 1 + k))) = stOf (nextOf (stateAt st i))
  rw [this]

theorem state_bit (st : BitVec 80) (i : Nat) : (stateAt st (i + 1)).getLsbD 79 = bitAt st i :=
  stOf_bit 79 (by norm_num)

theorem state_chosen (st : BitVec 80) (i : Nat) : (stateAt st (i + 1)).getLsbD 78 = true := by
  obtain ⟨m, _, _, h, _⟩ := nextOf_spec (stateAt st i)
  exact (stOf_bit 78 (by norm_num)).trans h

theorem bits_period (st : BitVec 80) (i : Nat) : bitAt st (i + 2 ^ 79) = bitAt st i := by
  rw [← state_bit, ← state_bit, show i + 2 ^ 79 + 1 = i + 1 + 2 ^ 79 by omega, states_period]

end WB.lowmc
