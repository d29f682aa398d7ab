import Verif.Proof.LfsrTab
import Verif.Proof.Reach4
import Mathlib.Dynamics.PeriodicPts.Lemmas
import Mathlib.NumberTheory.LucasPrimality
import Mathlib.Tactic.ReduceModChar
import Mathlib.Tactic.NormNum.Prime

/-!
# The shift register of `LowMCMethod_text.cpp`: every non-zero state has period `2 ^ 80 - 1`
-/
namespace WB.lowmc

/-- The bit shifted in. -/
def tapN (x : Nat) : Nat :=
  Nat.land (Nat.xor (Nat.xor (Nat.xor (Nat.xor (Nat.xor x (Nat.shiftRight x 13)) (Nat.shiftRight x 23))
    (Nat.shiftRight x 38)) (Nat.shiftRight x 51)) (Nat.shiftRight x 62)) 1

/-- One step of the register. -/
def TN (x : Nat) : Nat := Nat.xor (Nat.shiftRight x 1) (Nat.shiftLeft (tapN x) 79)

theorem xor4 (a b c d : Nat) : a ^^^ b ^^^ (c ^^^ d) = a ^^^ c ^^^ (b ^^^ d) := by
  rw [Nat.xor_assoc, Nat.xor_assoc, ← Nat.xor_assoc b, Nat.xor_comm b c, Nat.xor_assoc c b d]

theorem tapN_xor (x y : Nat) : tapN (x ^^^ y) = tapN x ^^^ tapN y := by
  show (_ ^^^ (_ >>> 13) ^^^ (_ >>> 23) ^^^ (_ >>> 38) ^^^ (_ >>> 51) ^^^ (_ >>> 62)) &&& 1 =
    ((_ ^^^ (_ >>> 13) ^^^ (_ >>> 23) ^^^ (_ >>> 38) ^^^ (_ >>> 51) ^^^ (_ >>> 62)) &&& 1) ^^^
    ((_ ^^^ (_ >>> 13) ^^^ (_ >>> 23) ^^^ (_ >>> 38) ^^^ (_ >>> 51) ^^^ (_ >>> 62)) &&& 1)
  rw [← Nat.and_xor_distrib_right]
  simp only [Nat.shiftRight_xor_distrib]
  rw [xor4 x y, xor4 (x ^^^ x >>> 13), xor4 (x ^^^ x >>> 13 ^^^ x >>> 23),
    xor4 (x ^^^ x >>> 13 ^^^ x >>> 23 ^^^ x >>> 38),
    xor4 (x ^^^ x >>> 13 ^^^ x >>> 23 ^^^ x >>> 38 ^^^ x >>> 51)]

theorem TN_xor (x y : Nat) : TN (x ^^^ y) = TN x ^^^ TN y := by
  show ((x ^^^ y) >>> 1) ^^^ (tapN (x ^^^ y) <<< 79) =
    ((x >>> 1) ^^^ (tapN x <<< 79)) ^^^ ((y >>> 1) ^^^ (tapN y <<< 79))
  rw [tapN_xor, Nat.shiftLeft_xor_distrib, Nat.shiftRight_xor_distrib, xor4]

theorem TN_zero : TN 0 = 0 := rfl

theorem tapN_lt (x : Nat) : tapN x < 2 := by
  have : tapN x = _ % 2 ^ 1 := Nat.and_two_pow_sub_one_eq_mod _ 1
  rw [this]
  exact Nat.mod_lt _ (by norm_num)

theorem TN_lt {x : Nat} (h : x < 2 ^ 80) : TN x < 2 ^ 80 := by
  apply Nat.xor_lt_two_pow
  · show x >>> 1 < _
    rw [Nat.shiftRight_eq_div_pow]
    omega
  · show tapN x <<< 79 < _
    rw [Nat.shiftLeft_eq]
    have := tapN_lt x
    omega

theorem TNi_lt {x : Nat} (h : x < 2 ^ 80) (n : Nat) : TN^[n] x < 2 ^ 80 := by
  induction n with
  | zero => exact h
  | succ n ih => rw [Function.iterate_succ_apply']; exact TN_lt ih

/-- Additive and commuting with the register. -/
def Lin (F : Nat → Nat) : Prop := (∀ x y, F (x ^^^ y) = F x ^^^ F y) ∧ ∀ x, F (TN x) = TN (F x)

theorem Lin.zero {F : Nat → Nat} (h : Lin F) : F 0 = 0 := by
  have := h.1 0 0
  rw [Nat.xor_self, Nat.xor_self] at this
  exact this

theorem lin_id : Lin id := ⟨fun _ _ => rfl, fun _ => rfl⟩

theorem lin_TN : Lin TN := ⟨TN_xor, fun _ => rfl⟩

theorem lin_comp {F G : Nat → Nat} (hF : Lin F) (hG : Lin G) : Lin (F ∘ G) :=
  ⟨fun x y => by simp only [Function.comp, hG.1, hF.1], fun x => by simp only [Function.comp, hG.2, hF.2]⟩

theorem lin_xor {F G : Nat → Nat} (hF : Lin F) (hG : Lin G) : Lin (fun x => F x ^^^ G x) :=
  ⟨fun x y => by simp only [hF.1, hG.1]; exact xor4 _ _ _ _,
   fun x => by simp only [hF.2, hG.2, TN_xor]⟩

theorem lin_iter (n : Nat) : Lin (TN^[n]) := by
  induction n with
  | zero => exact lin_id
  | succ n ih => rw [Function.iterate_succ']; exact lin_comp lin_TN ih

/-- The polynomial with the lowest `n` bits of `r` as coefficients, at the register, applied to `v`. -/
noncomputable def polN (n : Nat) : Nat → Nat → Nat → Nat :=
  @Nat.rec (fun _ => Nat → Nat → Nat → Nat) (fun _ _ acc => acc)
    (fun _ ih r v acc =>
      forceN (Nat.xor acc (Nat.mul (Nat.mod r 2) v)) fun acc =>
      forceN (TN v) fun v => forceN (Nat.div r 2) fun r => ih r v acc) n

theorem polN_zero (r v acc : Nat) : polN 0 r v acc = acc := rfl

theorem polN_succ (n r v acc : Nat) :
    polN (n + 1) r v acc = polN n (r / 2) (TN v) (acc ^^^ (r % 2 * v)) := by
  unfold polN
  simp only [forceN_eq]
  rfl

theorem bitmul_xor {b : Nat} (hb : b < 2) (x y : Nat) : b * (x ^^^ y) = b * x ^^^ b * y := by
  interval_cases b <;> simp

theorem bitmul_TN {b : Nat} (hb : b < 2) (x : Nat) : TN (b * x) = b * TN x := by
  interval_cases b <;> simp [TN_zero]

theorem polN_xor (n : Nat) : ∀ r v v' a a', polN n r (v ^^^ v') (a ^^^ a') = polN n r v a ^^^ polN n r v' a' := by
  induction n with
  | zero => intros; rfl
  | succ n ih =>
    intro r v v' a a'
    rw [polN_succ, polN_succ, polN_succ, ← ih, TN_xor, bitmul_xor (Nat.mod_lt _ (by norm_num)), xor4]

theorem polN_TN (n : Nat) : ∀ r v a, polN n r (TN v) (TN a) = TN (polN n r v a) := by
  induction n with
  | zero => intros; rfl
  | succ n ih =>
    intro r v a
    rw [polN_succ, polN_succ, ← ih, TN_xor, bitmul_TN (Nat.mod_lt _ (by norm_num))]

noncomputable def pol (r v : Nat) : Nat := polN 80 r v 0

theorem lin_pol (r : Nat) : Lin (pol r) :=
  ⟨fun x y => polN_xor 80 r x y 0 0, fun x => polN_TN 80 r x 0⟩

theorem pol_eq (r v : Nat) : pol r v = polN 80 r v 0 := rfl

attribute [local irreducible] pol polN

/-- The vector from which everything is obtained. -/
def e0 : Nat := 604462909807314587353088

theorem e0_lt : e0 < 2 ^ 80 := by unfold e0; norm_num

noncomputable def checkBasis : List Nat → Nat → Bool
  | [], _ => true
  | r :: l, v => Nat.beq (pol r e0) v && forceN (Nat.mul 2 v) (checkBasis l)

theorem basis_ok : checkBasis basisTab 1 = true := by decide +kernel

attribute [local irreducible] basisTab chainTab e0

theorem basis_len : basisTab.length = 80 := by decide +kernel

theorem chain_len : chainTab.length = 81 := by decide +kernel

theorem checkBasis_get {l : List Nat} {v : Nat} (h : checkBasis l v = true) (k : Nat) (hk : k < l.length) :
    pol l[k] e0 = 2 ^ k * v := by
  induction l generalizing v k with
  | nil => simp at hk
  | cons r l ih =>
    rw [checkBasis, Bool.and_eq_true] at h
    obtain ⟨hb, h3⟩ := h
    rw [forceN_eq] at h3
    have h3 : checkBasis l (2 * v) = true := h3
    have hb := Nat.eq_of_beq_eq_true hb
    cases k with
    | zero => rw [List.getElem_cons_zero, hb, pow_zero, Nat.one_mul]
    | succ k =>
      have := ih h3 k (by simpa using hk)
      rw [List.getElem_cons_succ, this, pow_succ, Nat.mul_assoc]

theorem basis_pol (k : Nat) (hk : k < 80) : ∃ r, pol r e0 = 2 ^ k := by
  have := checkBasis_get basis_ok k (by rw [basis_len]; exact hk)
  exact ⟨_, by rw [this, mul_one]⟩

/-- Maps commuting with the register are determined by one value. -/
theorem lin_ext {F G : Nat → Nat} (hF : Lin F) (hG : Lin G) (h : F e0 = G e0) :
    ∀ x < 2 ^ 80, F x = G x := by
  have hpol : ∀ {F : Nat → Nat} (_ : Lin F) (n r v a), F (polN n r v a) = polN n r (F v) (F a) := by
    intro F hF n
    induction n with
    | zero => intros; rw [polN_zero, polN_zero]
    | succ n ih =>
      intro r v a
      rw [polN_succ, polN_succ, ih, hF.2, hF.1]
      congr 2
      have : r % 2 < 2 := Nat.mod_lt _ (by norm_num)
      interval_cases r % 2
      · simp [hF.zero]
      · simp
  have hb : ∀ k < 80, F (2 ^ k) = G (2 ^ k) := by
    intro k hk
    obtain ⟨r, hr⟩ := basis_pol k hk
    rw [← hr]
    rw [pol_eq, hpol hF, hpol hG, h, hF.zero, hG.zero]
  have main : ∀ n ≤ 80, ∀ x < 2 ^ n, F x = G x := by
    intro n
    induction n with
    | zero =>
      intro _ x hx
      have : x = 0 := by simpa using hx
      rw [this, hF.zero, hG.zero]
    | succ n ih =>
      intro hn x hx
      by_cases hlt : x < 2 ^ n
      · exact ih (by omega) x hlt
      · have hx2 : x = (x - 2 ^ n) ^^^ 2 ^ n := by
          have hl : x - 2 ^ n < 2 ^ n := by rw [pow_succ] at hx; omega
          apply Nat.eq_of_testBit_eq
          intro i
          have hxe : x = 2 ^ n * 1 + (x - 2 ^ n) := by omega
          rw [Nat.testBit_xor, Nat.testBit_two_pow]
          conv_lhs => rw [hxe, Nat.testBit_two_pow_mul_add _ hl]
          by_cases hi : i < n
          · rw [if_pos hi, decide_eq_false (by omega)]; simp
          · rw [if_neg hi, Nat.testBit_lt_two_pow (lt_of_lt_of_le hl (Nat.pow_le_pow_right (by norm_num) (by omega)))]
            by_cases hi2 : n = i
            · subst hi2; simp
            · rw [decide_eq_false hi2]
              have : 1 < 2 ^ (i - n) := Nat.one_lt_two_pow (by omega)
              rw [Nat.testBit_lt_two_pow this]; rfl
        rw [hx2, hF.1, hG.1, hb n (by omega), ih (by omega) _ (by rw [pow_succ] at hx; omega)]
  exact main 80 le_rfl

/-! ## Powers of the register -/

/-- `chain[k]` squared is `chain[k+1]`. -/
noncomputable def checkChain : List Nat → Nat → Bool
  | [], _ => true
  | r :: l, s => Nat.beq (forceN (pol s e0) (pol s)) (pol r e0) && checkChain l r

theorem chain_cons : chainTab = 2 :: chainTab.tail := by decide +kernel

theorem chain_ok : checkChain chainTab.tail 2 = true := by decide +kernel

theorem checkChain_get {l : List Nat} {s k : Nat} (h : checkChain l s = true)
    (hs : ∀ x < 2 ^ 80, TN^[2 ^ k] x = pol s x) :
    ∀ i (hi : i < (s :: l).length), ∀ x < 2 ^ 80, TN^[2 ^ (k + i)] x = pol (s :: l)[i] x := by
  induction l generalizing s k with
  | nil =>
    intro i hi
    have : i = 0 := by simpa using hi
    subst this
    exact hs
  | cons r l ih =>
    rw [checkChain, Bool.and_eq_true] at h
    obtain ⟨hb, h2⟩ := h
    have hb := Nat.eq_of_beq_eq_true hb
    rw [forceN_eq] at hb
    have he0 := e0_lt
    have hr : ∀ x < 2 ^ 80, TN^[2 ^ (k + 1)] x = pol r x := by
      apply lin_ext (lin_iter _) (lin_pol _)
      rw [pow_succ, mul_two, Function.iterate_add_apply, hs _ (TNi_lt he0 _), hs _ he0, hb]
    intro i hi
    cases i with
    | zero => exact hs
    | succ i =>
      have := ih h2 hr i (by simpa using hi)
      rw [show k + (i + 1) = k + 1 + i by omega]
      exact this

theorem pow_zero_pol : ∀ x < 2 ^ 80, TN^[2 ^ 0] x = pol 2 x := by
  apply lin_ext (lin_iter _) (lin_pol _)
  show TN e0 = pol 2 e0
  have : Nat.beq (TN e0) (pol 2 e0) = true := by decide +kernel
  exact Nat.eq_of_beq_eq_true this

theorem pow2_pol (k : Nat) (hk : k ≤ 80) :
    ∀ x < 2 ^ 80, TN^[2 ^ k] x = pol (chainTab[k]'(by rw [chain_len]; omega)) x := by
  have := checkChain_get chain_ok pow_zero_pol k (by rw [← chain_cons, chain_len]; omega)
  rw [Nat.zero_add] at this
  simpa only [← chain_cons] using this

/-- The powers of the register with the polynomials of a table. -/
noncomputable def powT : List Nat → Nat → Nat → Nat
  | [], _, v => v
  | r :: l, n, v => forceN (Nat.div n 2) fun n2 =>
    forceN (@Nat.rec (fun _ => Nat) v (fun _ _ => pol r v) (Nat.mod n 2)) fun v => powT l n2 v

theorem powT_spec (l : List Nat) (k : Nat)
    (hl : ∀ i (hi : i < l.length), ∀ x < 2 ^ 80, TN^[2 ^ (k + i)] x = pol l[i] x) :
    ∀ n < 2 ^ l.length, ∀ v < 2 ^ 80, powT l n v = TN^[2 ^ k * n] v := by
  induction l generalizing k with
  | nil =>
    intro n hn v hv
    have : n = 0 := by simpa using hn
    subst this
    rfl
  | cons r l ih =>
    intro n hn v hv
    rw [powT, forceN_eq, forceN_eq]
    show powT l (n / 2) _ = _
    have h0 : ∀ x < 2 ^ 80, TN^[2 ^ k] x = pol r x := by
      have := hl 0 (by simp)
      simpa using this
    have ht := ih (k + 1) (fun i hi x hx => by
      have := hl (i + 1) (by simpa using hi) x hx
      rw [show k + 1 + i = k + (i + 1) by omega]
      exact this) (n / 2) (by rw [List.length_cons, pow_succ] at hn; omega)
    rcases Nat.mod_two_eq_zero_or_one n with h | h
    · have hh : Nat.mod n 2 = 0 := h
      rw [hh]
      show powT l (n / 2) v = _
      rw [ht v hv]
      congr 1
      obtain ⟨m, rfl⟩ : ∃ m, n = 2 * m := ⟨n / 2, by omega⟩
      rw [pow_succ, Nat.mul_div_cancel_left _ (by norm_num)]
      ring_nf
    · have hh : Nat.mod n 2 = 1 := h
      rw [hh]
      show powT l (n / 2) (pol r v) = _
      rw [← h0 v hv, ht _ (TNi_lt hv _), ← Function.iterate_add_apply]
      congr 1
      obtain ⟨m, rfl⟩ : ∃ m, n = 2 * m + 1 := ⟨n / 2, by omega⟩
      rw [pow_succ, show (2 * m + 1) / 2 = m by omega]
      ring_nf

theorem powT_chain (n : Nat) (hn : n < 2 ^ 81) (v : Nat) (hv : v < 2 ^ 80) :
    powT chainTab n v = TN^[n] v := by
  have := powT_spec chainTab 0 (fun i hi => by
    have := pow2_pol i (by rw [chain_len] at hi; omega)
    rw [Nat.zero_add]
    exact this) n (by rw [chain_len]; exact hn) v hv
  rw [this, pow_zero, Nat.one_mul]

/-! ## The period -/

noncomputable def checkCof : List (Nat × Nat) → Bool
  | [] => true
  | p :: l => Nat.beq (forceN (Nat.xor (powT chainTab p.1 e0) e0) (pol p.2)) e0 && checkCof l

attribute [local irreducible] powT

theorem cof_ok : checkCof cofTab = true := by decide +kernel

theorem checkCof_mem {l : List (Nat × Nat)} (h : checkCof l = true) : ∀ p ∈ l,
    pol p.2 (powT chainTab p.1 e0 ^^^ e0) = e0 := by
  induction l with
  | nil => intro p hp; simp at hp
  | cons q l ih =>
    rw [checkCof, Bool.and_eq_true] at h
    obtain ⟨hb, h2⟩ := h
    have hb := Nat.eq_of_beq_eq_true hb
    rw [forceN_eq] at hb
    intro p hp
    rcases List.mem_cons.1 hp with rfl | hp
    · exact hb
    · exact ih h2 p hp

theorem cof_ne {p : Nat × Nat} (hp : p ∈ cofTab) (hlt : p.1 < 2 ^ 81) {x : Nat} (hx : x < 2 ^ 80)
    (h : TN^[p.1] x = x) : x = 0 := by
  have h1 := checkCof_mem cof_ok p hp
  have he0 := e0_lt
  rw [powT_chain _ hlt _ he0] at h1
  have := lin_ext (lin_comp (lin_pol p.2) (lin_xor (lin_iter p.1) lin_id)) lin_id h1 x hx
  simp only [Function.comp, id, h, Nat.xor_self] at this
  rw [← this]
  exact (lin_pol p.2).zero

theorem TN_inj {x y : Nat} (hx : x < 2 ^ 80) (hy : y < 2 ^ 80) (h : TN x = TN y) : x = y := by
  -- the register is a bijection because the last bit can be recovered
  have h0 : x ^^^ y < 2 ^ 80 := Nat.xor_lt_two_pow hx hy
  have hz : TN (x ^^^ y) = 0 := by rw [TN_xor, h, Nat.xor_self]
  have h2 : (x ^^^ y) = 0 := by
    generalize x ^^^ y = z at h0 hz
    have hz2 : (z >>> 1) ^^^ (tapN z <<< 79) = 0 := hz
    have hz3 : z >>> 1 = tapN z <<< 79 := by
      have := congrArg (· ^^^ (tapN z <<< 79)) hz2
      simpa [Nat.xor_assoc] using this
    rw [Nat.shiftRight_eq_div_pow, Nat.shiftLeft_eq] at hz3
    have := tapN_lt z
    have hz4 : z < 2 := by omega
    interval_cases z
    · rfl
    · exact absurd hz (by decide)
  have := congrArg (· ^^^ y) h2
  simpa [Nat.xor_assoc] using this

theorem TN_ne {x : Nat} (hx : x < 2 ^ 80) (h : x ≠ 0) : TN x ≠ 0 := fun h2 =>
  h (TN_inj hx (by norm_num) (h2.trans TN_zero.symm))

theorem chain_80 : chainTab[80]? = some 2 := by decide +kernel

theorem TN_pow80 {x : Nat} (hx : x < 2 ^ 80) : TN^[2 ^ 80] x = TN x := by
  have h1 : chainTab[80]'(by rw [chain_len]; omega) = 2 := by
    have := chain_80
    rw [List.getElem?_eq_getElem (by rw [chain_len]; omega)] at this
    exact Option.some.inj this
  have h2 : TN^[2 ^ 0] x = pol 2 x := pow_zero_pol x hx
  rw [pow2_pol 80 le_rfl x hx, h1, ← h2]
  rfl

theorem TN_full {x : Nat} (hx : x < 2 ^ 80) : TN^[2 ^ 80 - 1] x = x := by
  apply TN_inj (TNi_lt hx _) hx
  have h : TN (TN^[2 ^ 80 - 1] x) = TN^[2 ^ 80 - 1 + 1] x := (Function.iterate_succ_apply' TN _ x).symm
  rw [h, show 2 ^ 80 - 1 + 1 = 2 ^ 80 by norm_num]
  exact TN_pow80 hx

theorem prime_big : Nat.Prime 4278255361 := by
  apply lucas_primality 4278255361 (23 : ZMod 4278255361)
  · norm_num; reduce_mod_char
  · intro q hq hd
    have hf : (4278255361 - 1 : ℕ) = 2 ^ 8 * (3 * (5 * (17 * 65537))) := by norm_num
    have aux : ∀ {r : Nat}, r.Prime → q ∣ r → q = r := fun hr h => (Nat.prime_dvd_prime_iff_eq hq hr).1 h
    have h := hd
    rw [hf] at h
    simp only [hq.dvd_mul] at h
    rcases h with h | h | h | h | h
    · have := aux (by norm_num) (hq.dvd_of_dvd_pow h); subst this
      norm_num; reduce_mod_char; decide +kernel
    all_goals
      have := aux (by norm_num) h
      subst this
      norm_num
      reduce_mod_char
      decide +kernel

theorem prime_factor {p : Nat} (hp : p.Prime) (h : p ∣ 2 ^ 80 - 1) :
    p ∈ [3, 5, 11, 17, 31, 41, 257, 61681, 4278255361] := by
  have hf : (2 ^ 80 - 1 : ℕ) = 3 * (5 * (5 * (11 * (17 * (31 * (41 * (257 * (61681 * 4278255361)))))))) := by
    norm_num
  rw [hf] at h
  have aux : ∀ {q : Nat}, q.Prime → p ∣ q → p = q := fun hq h => (Nat.prime_dvd_prime_iff_eq hp hq).1 h
  simp only [hp.dvd_mul] at h
  rcases h with h | h | h | h | h | h | h | h | h | h
  all_goals first
    | (have := aux prime_big h; subst this; simp)
    | (have := aux (by norm_num) h; subst this; simp)

/-- Non-zero states have no period shorter than `2 ^ 80 - 1`. -/
theorem TN_period {x : Nat} (hx : x < 2 ^ 80) (h0 : x ≠ 0) {d : Nat} (h : TN^[d] x = x) :
    2 ^ 80 - 1 ∣ d := by
  have hN : Function.IsPeriodicPt TN (2 ^ 80 - 1) x := TN_full hx
  have hd : Function.IsPeriodicPt TN d x := h
  have hdv := hN.minimalPeriod_dvd
  suffices hm : Function.minimalPeriod TN x = 2 ^ 80 - 1 by
    rw [← hm]; exact hd.minimalPeriod_dvd
  obtain ⟨k, hk⟩ := hdv
  by_cases hk1 : k = 1
  · rw [hk, hk1, mul_one]
  exfalso
  have hpr := Nat.minFac_prime hk1
  obtain ⟨j, hj⟩ := Nat.minFac_dvd k
  set p := k.minFac with hpdef
  have hpN : p ∣ 2 ^ 80 - 1 := ⟨Function.minimalPeriod TN x * j, by rw [hk, hj]; ring⟩
  have hper : TN^[(2 ^ 80 - 1) / p] x = x := by
    have : (2 ^ 80 - 1) / p = Function.minimalPeriod TN x * j := by
      apply Nat.div_eq_of_eq_mul_right hpr.pos
      rw [hk, hj]; ring
    rw [this]
    exact (Function.isPeriodicPt_minimalPeriod TN x).mul_const j
  have hmem := prime_factor hpr hpN
  have fin : ∀ h, ((2 ^ 80 - 1) / p, h) ∈ cofTab → False := fun h hh =>
    h0 (cof_ne hh (lt_of_le_of_lt (Nat.div_le_self _ _) (by norm_num)) hx hper)
  clear_value p
  simp only [List.mem_cons, List.not_mem_nil, or_false] at hmem
  rcases hmem with rfl | rfl | rfl | rfl | rfl | rfl | rfl | rfl | rfl <;>
    · norm_num [cofTab] at fin

end WB.lowmc
