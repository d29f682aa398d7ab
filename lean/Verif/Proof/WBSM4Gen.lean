import Verif.Proof.WBSM4Tab

/-!
# Table generation of the white-box SM4 demo (helper lemmas)
-/
namespace WB.wbsm4
open SM4 sm4

attribute [local irreducible] S L tau lin ap32 ap8

/-- What the demo needs from the matrix library. -/
structure LibOk (lib : Lib) : Prop where
  gen32 : ∀ f g w, OkM (lib.genaffinepairM32 f g) w (fun p _ => Pair32 p.1 p.2)
  gen8 : ∀ f g w, OkM (lib.genaffinepairM8 f g) w (fun p _ => Pair8 p.1 p.2)
  com : ∀ f0 f1 f2 f3 F, Ok (lib.affinecomM8to32 f0 f1 f2 f3 F) (fun F => ∀ x : BitVec 32,
    byte (ap32 F x) 0 = ap8 f0 (byte x 0) ∧ byte (ap32 F x) 1 = ap8 f1 (byte x 1) ∧
    byte (ap32 F x) 2 = ap8 f2 (byte x 2) ∧ byte (ap32 F x) 3 = ap8 f3 (byte x 3))
  mix : ∀ f g m, Ok (lib.affinemixM32 f g m) (fun m => ∀ x, ap32 m x = ap32 f (ap32 g x))
  mul : ∀ A B C0, Ok (lib.MatMulMatM32 A B C0) (fun C => ∀ x, lin C x = lin A (lin B x))
  u8 : ∀ f x, lib.affineU8 f x = .ok (ap8 f x)
  u32 : ∀ f x, lib.affineU32 f x = .ok (ap32 f x)
  xor : ∀ x, lib.xorU8 x = .ok ((weight x % 2 : Nat) : Int)

theorem libOk_current (env : Env) (he : env.endian = .little) : LibOk (Lib.current env) where
  gen32 f g w := (genaffinepairM32_ok env f g w).mono fun _ _ h => pair32_of h.1 h.2.1
  gen8 f g w := (genaffinepairM8_ok env f g w).mono fun _ _ h => pair8_of h.1 h.2.1
  com f0 f1 f2 f3 F := by
    obtain ⟨F', h, hm, hv⟩ := C20_affinecomM8to32 env he f0 f1 f2 f3 F
    exact ⟨F', h, com_of hm hv⟩
  mix f g m := (affinemixM32_ok env f g m).mono fun _ h => mix32_of h.1 h.2
  mul A B C0 := (MatMulMatM32_ok env A B C0).mono fun _ h => lin_mul h
  u8 := affineU8_eq env
  u32 := affineU32_eq env
  xor := xorU8_eq env

/-- The encodings chosen for round `i`. -/
structure RowOk (p : Nat → Aff32) (e : Nat → Nat → Aff8) (ec : Aff32) (q : Nat → Aff32) : Prop where
  P : Pair32 (p 0) (p 1)
  E : ∀ d, d < 4 → Pair8 (e d 0) (e d 1)
  EC : ∀ x d, d < 4 → byte (ap32 ec x) d = ap8 (e d 1) (byte x d)
  Q : Pair32 (q 0) (q 1)

/-- The encodings chosen for round `i`. -/
def Globals.RowOk (g : Globals) (i : Nat) : Prop :=
  wbsm4.RowOk (fun k => (g.P[i]!)[k]!) (fun d k => ((g.E[i]!)[d]!)[k]!) (g.EC[i]!)[1]! (fun k => (g.Q[i]!)[k]!)

theorem gen_affine_ok {lib : Lib} (hl : LibOk lib) (g0 : Globals) (w : World) :
    OkM (sm4_wb_gen_affine lib g0) w (fun g _ => (∀ i, i < 36 → g.RowOk i) ∧ g.skbox_enc = g0.skbox_enc) := by
  unfold sm4_wb_gen_affine
  refine OkM.forUp (fun i g _ => (∀ x, x < i → x < 36 → g.RowOk x) ∧ g.skbox_enc = g0.skbox_enc) (by omega)
    ⟨fun x hx => by omega, rfl⟩ ?_ (fun g _ h => ⟨fun i hi => h.1 i hi hi, h.2⟩)
  rintro i g w - hi ⟨hg, hs⟩
  rw [OkM.bind_iff, OkM.liftC_iff, rd2_get g.P hi (by omega), Ok.ok_iff]
  rw [OkM.bind_iff, OkM.liftC_iff, rd2_get g.P hi (by omega), Ok.ok_iff]
  refine OkM.bind (hl.gen32 _ _ w) ?_
  rintro ⟨p0, p1⟩ w1 hp
  simp only at hp ⊢
  obtain ⟨P1, hP1, gP1⟩ := wr2_get g.P (i := i) (k := 0) hi (by omega) p0
  obtain ⟨P2, hP2, gP2⟩ := wr2_get P1 (i := i) (k := 1) hi (by omega) p1
  rw [OkM.bind_iff, OkM.liftC_iff, hP1, Ok.ok_iff, OkM.bind_iff, OkM.liftC_iff, hP2, Ok.ok_iff]
  refine OkM.bind (P := fun E _ => (∀ x d k, x < 36 → d < 4 → k < 2 → x ≠ i →
      ((E[x]!)[d]!)[k]! = ((g.E[x]!)[d]!)[k]!) ∧ ∀ d, d < 4 → Pair8 ((E[i]!)[d]!)[0]! ((E[i]!)[d]!)[1]!) ?_ ?_
  · refine OkM.forUp (fun j (E : Vector (Vector (Vector Aff8 2) 4) 36) _ => (∀ x d k, x < 36 → d < 4 → k < 2 → x ≠ i →
      ((E[x]!)[d]!)[k]! = ((g.E[x]!)[d]!)[k]!) ∧ ∀ d, d < j → d < 4 → Pair8 ((E[i]!)[d]!)[0]! ((E[i]!)[d]!)[1]!)
      (by omega) ⟨fun _ _ _ _ _ _ _ => rfl, fun d hd => by omega⟩ ?_ (fun E _ h => ⟨h.1, fun d hd => h.2 d hd hd⟩)
    rintro j E w2 - hj ⟨hE, hE'⟩
    rw [OkM.bind_iff, OkM.liftC_iff, rd3_get E hi hj (by omega), Ok.ok_iff]
    rw [OkM.bind_iff, OkM.liftC_iff, rd3_get E hi hj (by omega), Ok.ok_iff]
    refine OkM.bind (hl.gen8 _ _ w2) ?_
    rintro ⟨e0, e1⟩ w3 he
    simp only at he ⊢
    obtain ⟨E1, hE1, gE1⟩ := wr3_get E (i := i) (k := j) (t := 0) hi hj (by omega) e0
    obtain ⟨E2, hE2, gE2⟩ := wr3_get E1 (i := i) (k := j) (t := 1) hi hj (by omega) e1
    rw [OkM.bind_iff, OkM.liftC_iff, hE1, Ok.ok_iff, OkM.liftC_iff, hE2, Ok.ok_iff]
    constructor
    · intro x d k hx hd hk hne
      rw [gE2 x d k hx hd hk, if_neg (by omega), gE1 x d k hx hd hk, if_neg (by omega)]
      exact hE x d k hx hd hk hne
    · intro d hdj hd
      rw [gE2 i d 0 hi hd (by omega), if_neg (by omega), gE1 i d 0 hi hd (by omega),
        gE2 i d 1 hi hd (by omega), gE1 i d 1 hi hd (by omega)]
      by_cases e : d = j
      · rw [if_pos (by omega), if_pos (by omega)]; exact he
      · rw [if_neg (by omega), if_neg (by omega), if_neg (by omega)]
        exact hE' d (by omega) hd
  rintro E w2 ⟨hE, hE'⟩
  rw [OkM.bind_iff, OkM.liftC_iff]
  rw [rd3_get E hi (by omega) (by omega), C_pure_bind, rd3_get E hi (by omega) (by omega), C_pure_bind,
    rd3_get E hi (by omega) (by omega), C_pure_bind, rd3_get E hi (by omega) (by omega), C_pure_bind,
    rd2_get g.EC hi (by omega), C_pure_bind]
  refine (hl.com _ _ _ _ _).mono ?_
  intro ec hec
  obtain ⟨EC, hEC, gEC⟩ := wr2_get g.EC (i := i) (k := 1) hi (by omega) ec
  rw [OkM.bind_iff, OkM.liftC_iff, hEC, Ok.ok_iff]
  rw [OkM.bind_iff, OkM.liftC_iff, rd2_get g.Q hi (by omega), Ok.ok_iff]
  rw [OkM.bind_iff, OkM.liftC_iff, rd2_get g.Q hi (by omega), Ok.ok_iff]
  refine OkM.bind (hl.gen32 _ _ w2) ?_
  rintro ⟨q0, q1⟩ w3 hq
  simp only at hq ⊢
  obtain ⟨Q1, hQ1, gQ1⟩ := wr2_get g.Q (i := i) (k := 0) hi (by omega) q0
  obtain ⟨Q2, hQ2, gQ2⟩ := wr2_get Q1 (i := i) (k := 1) hi (by omega) q1
  rw [OkM.bind_iff, OkM.liftC_iff, hQ1, Ok.ok_iff, OkM.bind_iff, OkM.liftC_iff, hQ2, Ok.ok_iff, OkM.pure_iff]
  refine ⟨?_, hs⟩
  intro x hxi hx
  by_cases e : x = i
  · subst e
    constructor
    · show Pair32 (P2[x]!)[0]! (P2[x]!)[1]!
      rw [gP2 x 0 hx (by omega), if_neg (by omega), gP1 x 0 hx (by omega), if_pos (by omega),
        gP2 x 1 hx (by omega), if_pos (by omega)]
      exact hp
    · exact hE'
    · intro y d hd
      show byte (ap32 (EC[x]!)[1]! y) d = ap8 ((E[x]!)[d]!)[1]! (byte y d)
      rw [gEC x 1 hx (by omega), if_pos ⟨rfl, rfl⟩]
      obtain ⟨c0, c1, c2, c3⟩ := hec y
      obtain rfl | rfl | rfl | rfl : d = 0 ∨ d = 1 ∨ d = 2 ∨ d = 3 := by omega
      · exact c0
      · exact c1
      · exact c2
      · exact c3
    · show Pair32 (Q2[x]!)[0]! (Q2[x]!)[1]!
      rw [gQ2 x 0 hx (by omega), if_neg (by omega), gQ1 x 0 hx (by omega), if_pos (by omega),
        gQ2 x 1 hx (by omega), if_pos (by omega)]
      exact hq
  · have h := hg x (by omega) hx
    constructor
    · show Pair32 (P2[x]!)[0]! (P2[x]!)[1]!
      rw [gP2 x 0 hx (by omega), if_neg (by omega), gP1 x 0 hx (by omega), if_neg (by omega),
        gP2 x 1 hx (by omega), if_neg (by omega), gP1 x 1 hx (by omega), if_neg (by omega)]
      exact h.P
    · intro d hd
      show Pair8 ((E[x]!)[d]!)[0]! ((E[x]!)[d]!)[1]!
      rw [hE x d 0 hx hd (by omega) e, hE x d 1 hx hd (by omega) e]
      exact h.E d hd
    · intro y d hd
      show byte (ap32 (EC[x]!)[1]! y) d = ap8 ((E[x]!)[d]!)[1]! (byte y d)
      rw [gEC x 1 hx (by omega), if_neg (by omega), hE x d 1 hx hd (by omega) e]
      exact h.EC y d hd
    · show Pair32 (Q2[x]!)[0]! (Q2[x]!)[1]!
      rw [gQ2 x 0 hx (by omega), if_neg (by omega), gQ1 x 0 hx (by omega), if_neg (by omega),
        gQ2 x 1 hx (by omega), if_neg (by omega), gQ1 x 1 hx (by omega), if_neg (by omega)]
      exact h.Q

/-! ## The lookup tables -/

/-- A byte at position `d` of a word, the other bytes being zero. -/
def placed (d : Nat) (b : BitVec 8) : BitVec 32 := b.setWidth 32 <<< (24 - 8 * d)

theorem word_placed (b0 b1 b2 b3 : BitVec 8) :
    word b0 b1 b2 b3 = placed 0 b0 ^^^ placed 1 b1 ^^^ placed 2 b2 ^^^ placed 3 b3 := by
  apply BitVec.eq_of_getLsbD_eq
  intro i hi
  rw [getLsbD_word]
  unfold placed
  simp only [BitVec.getLsbD_xor, BitVec.getLsbD_shiftLeft, BitVec.getLsbD_setWidth, hi, decide_true, Bool.true_and]
  have hz : ∀ (b : BitVec 8) k, 8 ≤ k → b.getLsbD k = false := fun b k h => BitVec.getLsbD_of_ge b k h
  by_cases h0 : i < 8
  · have e0 : i < 24 - 8 * 0 := by omega
    have e1 : i < 24 - 8 * 1 := by omega
    have e2 : i < 24 - 8 * 2 := by omega
    simp [h0, e0, e1, e2, hi]
  · by_cases h1 : i < 16
    · have e0 : i < 24 - 8 * 0 := by omega
      have e1 : i < 24 - 8 * 1 := by omega
      have e2 : ¬ i < 24 - 8 * 2 := by omega
      have := hz b3 i (by omega)
      simp [h0, h1, e0, e1, e2, hi, this, show i - 8 < 32 by omega]
    · by_cases h2 : i < 24
      · have e0 : i < 24 - 8 * 0 := by omega
        have e1 : ¬ i < 24 - 8 * 1 := by omega
        have e2 : ¬ i < 24 - 8 * 2 := by omega
        have t3 := hz b3 i (by omega)
        have t2 := hz b2 (i - 8) (by omega)
        simp [h0, h1, h2, e0, e1, e2, hi, t3, t2, show i - 16 < 32 by omega]
      · have e0 : ¬ i < 24 - 8 * 0 := by omega
        have e1 : ¬ i < 24 - 8 * 1 := by omega
        have e2 : ¬ i < 24 - 8 * 2 := by omega
        have t3 := hz b3 i (by omega)
        have t2 := hz b2 (i - 8) (by omega)
        have t1 := hz b1 (i - 16) (by omega)
        simp [h0, h1, h2, e0, e1, e2, hi, t3, t2, t1, show i - 24 < 32 by omega]

theorem splitQL_ok (env : Env) (QL : M32) :
    Ok (splitQL env QL) (fun q => ∀ j r, j < 4 → (h : r < 32) →
      (q[j]!)[r]! = (((QL[r] : BitVec 32) >>> (8 * j)).setWidth 8 : BitVec 8).setWidth 32) := by
  unfold splitQL
  refine Ok.forUp (fun i (q : Vector M32 4) => ∀ j r, j < 4 → (h : r < 32) → j < i →
    (q[j]!)[r]! = (((QL[r] : BitVec 32) >>> (8 * j)).setWidth 8 : BitVec 8).setWidth 32) (by omega) (by omega) ?_
    (fun q h j r hj hr => h j r hj hr hj)
  intro i q _ hi h
  refine Ok.forUp (fun t (q : Vector M32 4) => ∀ j r, j < 4 → (h : r < 32) → j < i ∨ (j = i ∧ r < t) →
    (q[j]!)[r]! = (((QL[r] : BitVec 32) >>> (8 * j)).setWidth 8 : BitVec 8).setWidth 32) (by omega) ?_ ?_
    (fun q h j r hj hr hji => h j r hj hr (by omega))
  · intro j r hj hr hji
    exact h j r hj hr (by omega)
  · intro t q _ ht h
    rw [rd_ok _ _ ht, C_pure_bind]
    obtain ⟨q', hq, gq⟩ := wr2_get (n := 4) (m := 32) q (i := i) (k := t) hi ht
      ((((QL[t] : BitVec 32) >>> (8 * i)).setWidth 8 : BitVec 8).setWidth 32)
    rw [hq, Ok.ok_iff]
    intro j r hj hr hji
    rw [gq j r hj hr]
    by_cases c : j = i ∧ r = t
    · obtain ⟨rfl, rfl⟩ := c
      rw [if_pos ⟨rfl, rfl⟩]
    · rw [if_neg c]
      exact h j r hj hr (by omega)

theorem dot_placed (y : BitVec 32) (b : BitVec 8) (d : Nat) (hd : d < 4) :
    ((weight ((((y >>> (8 * (3 - d))).setWidth 8 : BitVec 8).setWidth 32).setWidth 8 &&& b) : Nat) : ZMod 2) =
      ((weight (y &&& placed d b) : Nat) : ZMod 2) := by
  rw [weight_cast, weight_cast]
  unfold placed
  obtain rfl | rfl | rfl | rfl : d = 0 ∨ d = 1 ∨ d = 2 ∨ d = 3 := by omega
  all_goals
    simp only [Finset.sum_range_succ, Finset.sum_range_zero]
    simp [bitF_false]

theorem temp_ok {lib : Lib} (hl : LibOk lib) (QL : M32) (QLi : Vector M32 4)
    (hq : ∀ j r, j < 4 → (h : r < 32) →
      (QLi[j]!)[r]! = (((QL[r] : BitVec 32) >>> (8 * j)).setWidth 8 : BitVec 8).setWidth 32)
    (d : Nat) (hd : d < 4) (kd : BitVec 8) :
    (forUp 0 32 (0 : BitVec 32) fun ii temp => do
        if (← lib.xorU8 (((← rd2 QLi (3 - d) ii).setWidth 8) &&& kd)) != 0 then pure (temp ^^^ (← rd identM32 ii))
        else pure temp) = .ok (lin QL (placed d kd)) := by
  have := mulVecS idOK32 (fun ii temp => do
        if (← lib.xorU8 (((← rd2 QLi (3 - d) ii).setWidth 8) &&& kd)) != 0 then pure (temp ^^^ (← rd identM32 ii))
        else pure temp) (vec32 (lin QL (placed d kd))) ?_
  · obtain ⟨a, ha, hv, -⟩ := this
    rw [ha]
    congr 1
    exact vec32_inj hv
  · intro i hi ans
    refine ⟨weight ((QLi[3 - d]!)[i]!.setWidth 8 &&& kd), ?_, ?_⟩
    · rw [rd2_get (n := 4) (m := 32) QLi (show 3 - d < 4 by omega) hi, C_pure_bind, hl.xor, C_pure_bind]
      rfl
    · rw [hq (3 - d) i (by omega) hi, dot_placed _ _ _ hd,
        dotS (Nat.le_refl 32) _ _ (fun k hk => BitVec.getLsbD_of_ge _ _ hk)]
      rw [show vec32 (lin QL (placed d kd)) = _ from vec_lin QL (placed d kd)]
      rfl

/-- Entry of the lookup table. -/
def entry (QL : M32) (e : Aff8) (sk : Nat → BitVec 8) (r : BitVec 32) (d k : Nat) : BitVec 32 :=
  lin QL (placed d (sk (ap8 e (BitVec.ofNat 8 k)).toNat)) ^^^ (if d = 3 then r else 0)

theorem roundTables_ok {lib : Lib} (hl : LibOk lib) (g : Globals) (i : Nat) (hi : i < 32) (QL : M32) (QLi : Vector M32 4)
    (hq : ∀ j r, j < 4 → (h : r < 32) →
      (QLi[j]!)[r]! = (((QL[r] : BitVec 32) >>> (8 * j)).setWidth 8 : BitVec 8).setWidth 32)
    (r : BitVec 32) (T : Vector (Vector (Vector (BitVec 32) 256) 4) 32) :
    Ok (roundTables lib g i QLi r T) (fun T' => ∀ x d k, x < 32 → d < 4 → k < 256 → ((T'[x]!)[d]!)[k]! =
      if x = i then entry QL ((g.E[i]!)[d]!)[0]! (fun z => ((g.skbox_enc[i]!)[d]!)[z]!) r d k
      else ((T[x]!)[d]!)[k]!) := by
  unfold roundTables
  refine Ok.forUp (fun t (T' : Vector (Vector (Vector (BitVec 32) 256) 4) 32) =>
    ∀ x d k, x < 32 → d < 4 → k < 256 → ((T'[x]!)[d]!)[k]! =
      if x = i ∧ k < t then entry QL ((g.E[i]!)[d]!)[0]! (fun z => ((g.skbox_enc[i]!)[d]!)[z]!) r d k
      else ((T[x]!)[d]!)[k]!) (by omega) ?_ ?_ ?_
  · intro x d k _ _ _
    rw [if_neg (by omega)]
  · intro t T' _ ht h
    refine Ok.bind (P := fun (T2 : Vector (Vector (Vector (BitVec 32) 256) 4) 32) =>
      ∀ x d k, x < 32 → d < 4 → k < 256 → ((T2[x]!)[d]!)[k]! =
      if x = i ∧ k = t then lin QL (placed d ((g.skbox_enc[i]!)[d]!)[(ap8 ((g.E[i]!)[d]!)[0]! (BitVec.ofNat 8 k)).toNat]!)
      else ((T'[x]!)[d]!)[k]!) ?_ ?_
    · refine Ok.forUp (fun u (T2 : Vector (Vector (Vector (BitVec 32) 256) 4) 32) =>
        ∀ x d k, x < 32 → d < 4 → k < 256 → ((T2[x]!)[d]!)[k]! =
        if x = i ∧ k = t ∧ d < u then
          lin QL (placed d ((g.skbox_enc[i]!)[d]!)[(ap8 ((g.E[i]!)[d]!)[0]! (BitVec.ofNat 8 k)).toNat]!)
        else ((T'[x]!)[d]!)[k]!) (by omega) ?_ ?_ ?_
      · intro x d k _ _ _
        rw [if_neg (by omega)]
      · intro d T2 _ hd h2
        have hlt : (ap8 ((g.E[i]!)[d]!)[0]! (BitVec.ofNat 8 t)).toNat < 256 := BitVec.isLt _
        rw [rd3_get g.E (show i < 36 by omega) hd (by omega), C_pure_bind, hl.u8, C_pure_bind,
          rd3_get g.skbox_enc hi hd hlt, C_pure_bind, temp_ok hl QL QLi hq d hd, C_pure_bind]
        obtain ⟨T3, hT3, g3⟩ := wr3_get T2 (i := i) (k := d) (t := t) hi hd ht
          (lin QL (placed d ((g.skbox_enc[i]!)[d]!)[(ap8 ((g.E[i]!)[d]!)[0]! (BitVec.ofNat 8 t)).toNat]!))
        rw [hT3, Ok.ok_iff]
        intro x d' k hx hd' hk
        rw [g3 x d' k hx hd' hk]
        by_cases c : x = i ∧ d' = d ∧ k = t
        · obtain ⟨rfl, rfl, rfl⟩ := c
          rw [if_pos ⟨rfl, rfl, rfl⟩, if_pos (by omega)]
        · rw [if_neg c, h2 x d' k hx hd' hk]
          by_cases c2 : x = i ∧ k = t ∧ d' < d
          · rw [if_pos c2, if_pos (by omega)]
          · rw [if_neg c2, if_neg (by omega)]
      · intro T2 h2 x d k hx hd hk
        rw [h2 x d k hx hd hk]
        by_cases c : x = i ∧ k = t
        · rw [if_pos c, if_pos (by omega)]
        · rw [if_neg c, if_neg (by omega)]
    · intro T2 h2
      rw [rd3_get T2 hi (by omega) ht, C_pure_bind]
      obtain ⟨T3, hT3, g3⟩ := wr3_get T2 (i := i) (k := 3) (t := t) hi (by omega) ht (((T2[i]!)[3]!)[t]! ^^^ r)
      rw [hT3, Ok.ok_iff]
      intro x d k hx hd hk
      rw [g3 x d k hx hd hk]
      by_cases c : x = i ∧ d = 3 ∧ k = t
      · obtain ⟨rfl, rfl, rfl⟩ := c
        rw [if_pos ⟨rfl, rfl, rfl⟩, if_pos (by omega), h2 x 3 k hx (by omega) hk, if_pos ⟨rfl, rfl⟩]
        unfold entry
        rw [if_pos rfl]
      · rw [if_neg c, h2 x d k hx hd hk]
        by_cases c2 : x = i ∧ k = t
        · obtain ⟨rfl, rfl⟩ := c2
          rw [if_pos ⟨rfl, rfl⟩, if_pos (by omega)]
          unfold entry
          rw [if_neg (by omega)]
          exact BitVec.xor_zero.symm
        · rw [if_neg c2, h x d k hx hd hk]
          by_cases c3 : x = i ∧ k < t
          · rw [if_pos c3, if_pos (by omega)]
          · rw [if_neg c3, if_neg (by omega)]
  · intro T' h x d k hx hd hk
    rw [h x d k hx hd hk]
    by_cases c : x = i
    · rw [if_pos c, if_pos ⟨c, hk⟩]
    · rw [if_neg c, if_neg (by omega)]

end WB.wbsm4
