import Verif.Proof.AESRound
import Verif.Proof.WBSM4Gen

/-!
# Table generation of the white-box AES demo (helper lemmas)
-/
namespace WB.aes
open AES (State)
open SM4 (word byte)
open wbsm4 (rd3 wr3 placed word_placed)

attribute [local irreducible] AES.S lin gfMul

instance : Inhabited M8 := ⟨Vector.replicate 8 0⟩
instance : Inhabited M32 := ⟨Vector.replicate 32 0⟩

/-- What the demo needs from the matrix library. -/
structure LibOk (lib : Lib) : Prop where
  gen32 : ∀ a b w, OkM (lib.genMatpairM32 a b) w (fun p _ => ∀ x, lin p.2 (lin p.1 x) = x)
  gen8 : ∀ a b w, OkM (lib.genMatpairM8 a b) w (fun p _ => ∀ x, lin p.1 (lin p.2 x) = x)
  u8 : ∀ A x, lib.MatMulNumM8 A x = .ok (lin A x)
  u32 : ∀ A x, lib.MatMulNumM32 A x = .ok (lin A x)

theorem lin_inv {w : Nat} {A B : Vector (BitVec w) w} (h : matOf w (bitS w) A * matOf w (bitS w) B = 1) (x : BitVec w) :
    lin A (lin B x) = x := by
  apply vecS_inj
  simp only [vec_lin, Matrix.mulVec_mulVec, h, Matrix.one_mulVec]

theorem libOk_current (env : Env) : LibOk (Lib.current env) where
  gen32 a b w := (genMatpairM32_ok env a b w).mono fun _ _ h => lin_inv (mat_comm h.1)
  gen8 a b w := (genMatpairM8_ok env a b w).mono fun _ _ h => lin_inv h.1
  u8 A x := by
    obtain ⟨y, h, hy⟩ := MatMulNumM8_ok env A x
    show MatMulNumM8 env A x = _
    rw [h, lin_eq hy]
  u32 A x := by
    obtain ⟨y, h, hy⟩ := MatMulNumM32_ok env A x
    show MatMulNumM32 env A x = _
    rw [h, lin_eq hy]

/-! ## `TyiTables` -/

/-- Contribution of the byte `b` in row `r` of a column to the mixed column. -/
def Tyi (r : Nat) (b : BitVec 8) : BitVec 32 :=
  if r = 0 then word (gfMul 0x1b 2 b) b b (gfMul 0x1b 3 b)
  else if r = 1 then word (gfMul 0x1b 3 b) (gfMul 0x1b 2 b) b b
  else if r = 2 then word b (gfMul 0x1b 3 b) (gfMul 0x1b 2 b) b
  else word b b (gfMul 0x1b 3 b) (gfMul 0x1b 2 b)

theorem Tyi_0 (b : BitVec 8) : Tyi 0 b = word (gfMul 0x1b 2 b) b b (gfMul 0x1b 3 b) := rfl
theorem Tyi_1 (b : BitVec 8) : Tyi 1 b = word (gfMul 0x1b 3 b) (gfMul 0x1b 2 b) b b := rfl
theorem Tyi_2 (b : BitVec 8) : Tyi 2 b = word b (gfMul 0x1b 3 b) (gfMul 0x1b 2 b) b := rfl
theorem Tyi_3 (b : BitVec 8) : Tyi 3 b = word b b (gfMul 0x1b 3 b) (gfMul 0x1b 2 b) := rfl

theorem word_or (b0 b1 b2 b3 : BitVec 8) :
    b0.setWidth 32 <<< 24 ||| b1.setWidth 32 <<< 16 ||| b2.setWidth 32 <<< 8 ||| b3.setWidth 32 = word b0 b1 b2 b3 := by
  apply BitVec.eq_of_getLsbD_eq
  intro i hi
  rw [sm4.getLsbD_word]
  simp only [BitVec.getLsbD_or, BitVec.getLsbD_shiftLeft, BitVec.getLsbD_setWidth, hi, decide_true, Bool.true_and]
  have hz : ∀ (b : BitVec 8) k, 8 ≤ k → b.getLsbD k = false := fun b k h => BitVec.getLsbD_of_ge b k h
  by_cases h0 : i < 8
  · simp [h0, show i < 16 by omega, show i < 24 by omega, hi]
  · by_cases h1 : i < 16
    · simp [h0, h1, show i < 24 by omega, hi, hz b3 i (by omega), show i - 8 < 32 by omega]
    · by_cases h2 : i < 24
      · simp [h0, h1, h2, hi, hz b3 i (by omega), hz b2 (i - 8) (by omega), show i - 16 < 32 by omega]
      · simp [h0, h1, h2, hi, hz b3 i (by omega), hz b2 (i - 8) (by omega), hz b1 (i - 16) (by omega),
          show i - 24 < 32 by omega]

theorem xi_eq (x : Nat) (hx : x < 256) : BitVec.ofNat 32 x = (BitVec.ofNat 8 x).setWidth 32 := by
  apply BitVec.eq_of_toNat_eq
  simp
  omega

theorem shlInt_false (v : BitVec 32) (k : Nat) : shlInt false v k = .ok (v <<< k) := by
  unfold shlInt
  simp

theorem fillTyi_ok (t : Vector (Vector (BitVec 32) 256) 4) :
    Ok (fillTyi false t) (fun t => ∀ r x, r < 4 → x < 256 → (t[r]!)[x]! = Tyi r (BitVec.ofNat 8 x)) := by
  unfold fillTyi
  refine Ok.forUp (fun i (t : Vector (Vector (BitVec 32) 256) 4) => 0 < i → ∀ r x, r < 4 → x < 256 →
    (t[r]!)[x]! = Tyi r (BitVec.ofNat 8 x)) (by omega) (fun h => by omega) ?_ (fun t h => h (by omega))
  intro _ t _ _ _
  refine Ok.forUp (fun i (t : Vector (Vector (BitVec 32) 256) 4) => ∀ r x, r < 4 → x < 256 → x < i →
    (t[r]!)[x]! = Tyi r (BitVec.ofNat 8 x)) (by omega) (by omega) ?_ (fun t h _ r x hr hx => h r x hr hx hx)
  intro i t _ hi h
  simp only [tyiEntry, gMul_eq, C_pure_bind, shlInt_false, xi_eq i hi, word_or]
  obtain ⟨t1, h1, g1⟩ := wr2_get t (i := 0) (k := i) (by omega) hi (Tyi 0 (BitVec.ofNat 8 i))
  obtain ⟨t2, h2, g2⟩ := wr2_get t1 (i := 1) (k := i) (by omega) hi (Tyi 1 (BitVec.ofNat 8 i))
  obtain ⟨t3, h3, g3⟩ := wr2_get t2 (i := 2) (k := i) (by omega) hi (Tyi 2 (BitVec.ofNat 8 i))
  obtain ⟨t4, h4, g4⟩ := wr2_get t3 (i := 3) (k := i) (by omega) hi (Tyi 3 (BitVec.ofNat 8 i))
  rw [Tyi_0] at h1
  rw [Tyi_1] at h2
  rw [Tyi_2] at h3
  rw [Tyi_3] at h4
  rw [h1, C_pure_bind, h2, C_pure_bind, h3, C_pure_bind, h4, Ok.ok_iff]
  intro r x hr hx hxi
  rw [g4 r x hr hx, g3 r x hr hx, g2 r x hr hx, g1 r x hr hx]
  by_cases c : x = i
  · subst c
    obtain rfl | rfl | rfl | rfl : r = 0 ∨ r = 1 ∨ r = 2 ∨ r = 3 := by omega
    · rw [if_neg (by omega), if_neg (by omega), if_neg (by omega), if_pos (by omega)]
    · rw [if_neg (by omega), if_neg (by omega), if_pos (by omega)]
    · rw [if_neg (by omega), if_pos (by omega)]
    · rw [if_pos (by omega)]
  · rw [if_neg (by omega), if_neg (by omega), if_neg (by omega), if_neg (by omega)]
    exact h r x hr hx (by omega)

/-! ## The mixing matrices -/

/-- The generated matrices are inverse pairs. -/
structure MixOk (m : Mixing) : Prop where
  m32 : ∀ i k, i < 10 → k < 4 → ∀ x, lin (((m.mb_32x32[i]!)[k]!)[1]!) (lin (((m.mb_32x32[i]!)[k]!)[0]!) x) = x
  m8 : ∀ i k, i < 10 → k < 16 → ∀ x, lin (((m.mb_8x8[i]!)[k]!)[0]!) (lin (((m.mb_8x8[i]!)[k]!)[1]!) x) = x

theorem genMixing_ok {lib : Lib} (hl : LibOk lib) (m : Mixing) (w : World) :
    OkM (genMixing lib m) w (fun m _ => MixOk m) := by
  unfold genMixing
  refine OkM.forUp (fun n m _ =>
    (∀ i k, i < 10 → k < 4 → i < n → ∀ x, lin (((m.mb_32x32[i]!)[k]!)[1]!) (lin (((m.mb_32x32[i]!)[k]!)[0]!) x) = x) ∧
    (∀ i k, i < 10 → k < 16 → i < n → ∀ x, lin (((m.mb_8x8[i]!)[k]!)[0]!) (lin (((m.mb_8x8[i]!)[k]!)[1]!) x) = x))
    (by omega) ⟨by omega, by omega⟩ ?_
    (fun m _ h => ⟨fun i k hi hk => h.1 i k hi hk hi, fun i k hi hk => h.2 i k hi hk hi⟩)
  rintro n m w - hn ⟨h1, h2⟩
  refine OkM.bind (P := fun m _ =>
    (∀ i k, i < 10 → k < 4 → i < n + 1 → ∀ x,
      lin (((m.mb_32x32[i]!)[k]!)[1]!) (lin (((m.mb_32x32[i]!)[k]!)[0]!) x) = x) ∧
    (∀ i k, i < 10 → k < 16 → i < n → ∀ x, lin (((m.mb_8x8[i]!)[k]!)[0]!) (lin (((m.mb_8x8[i]!)[k]!)[1]!) x) = x)) ?_ ?_
  · refine OkM.forUp (fun l m _ =>
      (∀ i k, i < 10 → k < 4 → i < n ∨ (i = n ∧ k < l) → ∀ x,
        lin (((m.mb_32x32[i]!)[k]!)[1]!) (lin (((m.mb_32x32[i]!)[k]!)[0]!) x) = x) ∧
      (∀ i k, i < 10 → k < 16 → i < n → ∀ x, lin (((m.mb_8x8[i]!)[k]!)[0]!) (lin (((m.mb_8x8[i]!)[k]!)[1]!) x) = x))
      (by omega) ⟨fun i k hi hk hh => h1 i k hi hk (by omega), h2⟩ ?_
      (fun m _ h => ⟨fun i k hi hk hh => h.1 i k hi hk (by omega), h.2⟩)
    rintro l m w - hl4 ⟨h1, h2⟩
    rw [OkM.bind_iff, OkM.liftC_iff, rd3_get m.mb_32x32 hn hl4 (by omega), Ok.ok_iff]
    rw [OkM.bind_iff, OkM.liftC_iff, rd3_get m.mb_32x32 hn hl4 (by omega), Ok.ok_iff]
    refine OkM.bind (hl.gen32 _ _ w) ?_
    rintro ⟨a, b⟩ w1 hp
    simp only at hp ⊢
    obtain ⟨t1, ht1, g1⟩ := wr3_get m.mb_32x32 (i := n) (k := l) (t := 0) hn hl4 (by omega) a
    obtain ⟨t2, ht2, g2⟩ := wr3_get t1 (i := n) (k := l) (t := 1) hn hl4 (by omega) b
    rw [OkM.bind_iff, OkM.liftC_iff, ht1, Ok.ok_iff, OkM.bind_iff, OkM.liftC_iff, ht2, Ok.ok_iff, OkM.pure_iff]
    refine ⟨?_, h2⟩
    intro i k hi hk hh x
    show lin (((t2[i]!)[k]!)[1]!) (lin (((t2[i]!)[k]!)[0]!) x) = x
    rw [g2 i k 1 hi hk (by omega), g2 i k 0 hi hk (by omega), if_neg (show ¬(i = n ∧ k = l ∧ 0 = 1) by omega),
      g1 i k 1 hi hk (by omega), g1 i k 0 hi hk (by omega)]
    by_cases c : i = n ∧ k = l
    · rw [if_pos (by omega), if_pos (by omega)]
      exact hp x
    · rw [if_neg (by omega), if_neg (by omega), if_neg (by omega)]
      exact h1 i k hi hk (by omega) x
  rintro m w ⟨h1, h2⟩
  refine OkM.forUp (fun l m _ =>
      (∀ i k, i < 10 → k < 4 → i < n + 1 → ∀ x,
        lin (((m.mb_32x32[i]!)[k]!)[1]!) (lin (((m.mb_32x32[i]!)[k]!)[0]!) x) = x) ∧
      (∀ i k, i < 10 → k < 16 → i < n ∨ (i = n ∧ k < l) → ∀ x,
        lin (((m.mb_8x8[i]!)[k]!)[0]!) (lin (((m.mb_8x8[i]!)[k]!)[1]!) x) = x))
      (by omega) ⟨h1, fun i k hi hk hh => h2 i k hi hk (by omega)⟩ ?_
      (fun m _ h => ⟨h.1, fun i k hi hk hh => h.2 i k hi hk (by omega)⟩)
  rintro l m w - hl16 ⟨h1, h2⟩
  rw [OkM.bind_iff, OkM.liftC_iff, rd3_get m.mb_8x8 hn hl16 (by omega), Ok.ok_iff]
  rw [OkM.bind_iff, OkM.liftC_iff, rd3_get m.mb_8x8 hn hl16 (by omega), Ok.ok_iff]
  refine OkM.bind (hl.gen8 _ _ w) ?_
  rintro ⟨a, b⟩ w1 hp
  simp only at hp ⊢
  obtain ⟨t1, ht1, g1⟩ := wr3_get m.mb_8x8 (i := n) (k := l) (t := 0) hn hl16 (by omega) a
  obtain ⟨t2, ht2, g2⟩ := wr3_get t1 (i := n) (k := l) (t := 1) hn hl16 (by omega) b
  rw [OkM.bind_iff, OkM.liftC_iff, ht1, Ok.ok_iff, OkM.bind_iff, OkM.liftC_iff, ht2, Ok.ok_iff, OkM.pure_iff]
  refine ⟨h1, ?_⟩
  intro i k hi hk hh x
  show lin (((t2[i]!)[k]!)[0]!) (lin (((t2[i]!)[k]!)[1]!) x) = x
  rw [g2 i k 1 hi hk (by omega), g2 i k 0 hi hk (by omega), if_neg (show ¬(i = n ∧ k = l ∧ 0 = 1) by omega),
    g1 i k 1 hi hk (by omega), g1 i k 0 hi hk (by omega)]
  by_cases c : i = n ∧ k = l
  · rw [if_pos (by omega), if_pos (by omega)]
    exact hp x
  · rw [if_neg (by omega), if_neg (by omega), if_neg (by omega)]
    exact h2 i k hi hk (by omega) x

/-! ## `TBoxes` and `TyiBoxes` -/

/-- The S-box behind the key addition of round `i`. -/
def bx (k : Nat → State) (i j x : Nat) : BitVec 8 := AES.S (BitVec.ofNat 8 x ^^^ (AES.shiftRows (k i))[j]!)

/-- An entry of the boxes is the one that the first phase computes. -/
def Good (k : Nat → State) (T : Tables) (i j x : Nat) : Prop :=
  ((T.TBoxes[i]!)[j]!)[x]! = bx k i j x ^^^ (if i = 9 then (k 10)[j]! else 0) ∧
  (i < 9 → ((T.TyiBoxes[i]!)[j]!)[x]! = Tyi (j % 4) (bx k i j x))

/-- An entry of `mixBijIn` is the one that the first phase computes. -/
def GoodIn (m : Mixing) (t : Vector (Vector (Vector (BitVec 32) 256) 16) 10) (i j x : Nat) : Prop :=
  ((t[i]!)[j]!)[x]! = (lin (((m.mb_8x8[i]!)[j]!)[0]!) (BitVec.ofNat 8 x)).setWidth 32

/-- `TyiTables` is right. -/
def GoodTyi (T : Tables) : Prop := ∀ r x, r < 4 → x < 256 → (T.TyiTables[r]!)[x]! = Tyi r (BitVec.ofNat 8 x)

theorem ofNat_toNat8 (b : BitVec 8) : BitVec.ofNat 8 b.toNat = b := by simp

theorem boxInput_eq {lib : Lib} (hl : LibOk lib) {m : Mixing} (hm : MixOk m) (i j x : Nat) (hi : i < 10) (hj : j < 16)
    (hx : x < 256) (T : Tables) (hin : ∀ a, a < i → ∀ y, y < 256 → GoodIn m T.mixBijIn a j y) :
    boxInput lib m T i j x = .ok ((BitVec.ofNat 8 x).setWidth 32) := by
  unfold boxInput
  by_cases c : 0 < i ∧ i < 9
  · simp only [if_pos c]
    rw [rd3_get m.mb_8x8 (by omega) hj (by omega), C_pure_bind, hl.u8, C_pure_bind, C_pure_eq, C_pure_bind]
    generalize hy : lin (((m.mb_8x8[i - 1]!)[j]!)[1]!) (BitVec.ofNat 8 x) = y
    have e : (y.setWidth 32).toNat = y.toNat := by simp; omega
    rw [e, rd3_get T.mixBijIn (by omega) hj y.isLt, hin (i - 1) (by omega) y.toNat y.isLt, ofNat_toNat8, ← hy,
      hm.m8 (i - 1) j (by omega) hj]
  · simp only [if_neg c]
    rw [xi_eq x hx]
    rfl

theorem fillBox_ok {lib : Lib} (hl : LibOk lib) {m : Mixing} (hm : MixOk m) (k : Nat → State)
    (ek : Vector (BitVec 8) 176) (i j x : Nat) (hi : i < 10) (hj : j < 16) (hx : x < 256) (hk : KeyOkN k (i + 1) ek)
    (T : Tables) (hty : GoodTyi T) (hin : ∀ a, a < i → ∀ y, y < 256 → GoodIn m T.mixBijIn a j y) :
    Ok (fillBox lib m ek i j x T) (fun T' => T'.TyiTables = T.TyiTables ∧ T'.mixBijIn = T.mixBijIn ∧
      ∀ a b c, a < 10 → b < 16 → c < 256 → Good k T a b c ∨ (a = i ∧ b = j ∧ c = x) → Good k T' a b c) := by
  unfold fillBox
  rw [boxInput_eq hl hm i j x hi hj hx T hin, C_pure_bind]
  have ek1 : ek[16 * i + j]! = (AES.shiftRows (k i))[j]! := by
    rw [← blk_get _ _ hj, hk i (by omega), if_pos (by omega)]
  have ek2 : ek[160 + j]! = (k 10)[j]! := by
    rw [← blk_get _ _ hj, show blk ek 160 = _ from hk 10 (by omega), if_neg (by omega)]
  rw [rd_get ek (by omega), C_pure_bind, ek1]
  have e : (((BitVec.ofNat 8 x).setWidth 32 ^^^ ((AES.shiftRows (k i))[j]!).setWidth 32 : BitVec 32)).toNat =
      (BitVec.ofNat 8 x ^^^ (AES.shiftRows (k i))[j]!).toNat := by
    rw [← BitVec.setWidth_xor]
    generalize (BitVec.ofNat 8 x ^^^ (AES.shiftRows (k i))[j]!) = y
    simp; omega
  rw [e, rd_SBox, C_pure_bind]
  rw [show AES.S (BitVec.ofNat 8 x ^^^ (AES.shiftRows (k i))[j]!) = bx k i j x from rfl]
  have e2 : ((bx k i j x).setWidth 32).setWidth 8 = bx k i j x := by
    generalize bx k i j x = y
    apply BitVec.eq_of_getLsbD_eq
    intro t ht
    simp [ht]
  have e3 : ((bx k i j x).setWidth 32).toNat = (bx k i j x).toNat := by
    generalize bx k i j x = y
    simp; omega
  simp only
  rw [e2]
  obtain ⟨B, hB, gB⟩ := wr3_get T.TBoxes (i := i) (k := j) (t := x) hi hj hx (bx k i j x)
  rw [hB, C_pure_bind]
  by_cases c9 : i = 9
  · rw [if_pos c9, rd3_get B hi hj hx, C_pure_bind, rd_get ek (by omega), C_pure_bind, ek2, gB i j x hi hj hx,
      if_pos ⟨rfl, rfl, rfl⟩]
    obtain ⟨B', hB', gB'⟩ := wr3_get B (i := i) (k := j) (t := x) hi hj hx (bx k i j x ^^^ (k 10)[j]!)
    rw [hB', C_pure_bind, Ok.pure_iff]
    refine ⟨rfl, rfl, ?_⟩
    intro a b c ha hb hc hg
    constructor
    · show ((B'[a]!)[b]!)[c]! = _
      rw [gB' a b c ha hb hc, gB a b c ha hb hc]
      by_cases d : a = i ∧ b = j ∧ c = x
      · obtain ⟨rfl, rfl, rfl⟩ := d
        rw [if_pos ⟨rfl, rfl, rfl⟩, if_pos c9]
      · rw [if_neg d, if_neg d]
        rcases hg with hg | hg
        · exact hg.1
        · exact absurd hg d
    · intro ha9
      rcases hg with hg | hg
      · exact hg.2 ha9
      · omega
  · rw [if_neg c9, e3, rd2_get T.TyiTables (by omega) (bx k i j x).isLt, C_pure_bind,
      hty _ _ (by omega) (bx k i j x).isLt, ofNat_toNat8]
    obtain ⟨B', hB', gB'⟩ := wr3_get T.TyiBoxes (i := i) (k := j) (t := x) (by omega) hj hx (Tyi (j % 4) (bx k i j x))
    rw [hB', C_pure_bind, Ok.pure_iff]
    refine ⟨rfl, rfl, ?_⟩
    intro a b c ha hb hc hg
    constructor
    · show ((B[a]!)[b]!)[c]! = _
      rw [gB a b c ha hb hc]
      by_cases d : a = i ∧ b = j ∧ c = x
      · obtain ⟨rfl, rfl, rfl⟩ := d
        rw [if_pos ⟨rfl, rfl, rfl⟩, if_neg c9]
        exact BitVec.xor_zero.symm
      · rw [if_neg d]
        rcases hg with hg | hg
        · exact hg.1
        · exact absurd hg d
    · intro ha9
      show ((B'[a]!)[b]!)[c]! = _
      rw [gB' a b c ha9 hb hc]
      by_cases d : a = i ∧ b = j ∧ c = x
      · obtain ⟨rfl, rfl, rfl⟩ := d
        rw [if_pos ⟨rfl, rfl, rfl⟩]
      · rw [if_neg d]
        rcases hg with hg | hg
        · exact hg.2 ha9
        · exact absurd hg d

theorem fillBoxes_ok (env : Env) {lib : Lib} (hl : LibOk lib) {m : Mixing} (hm : MixOk m) (k : Nat → State)
    (ek : Vector (BitVec 8) 176) (hk : KeyOk k ek) (T : Tables) (hty : GoodTyi T) :
    Ok (fillBoxes env lib m T ek) (fun p => GoodTyi p.1 ∧ KeyOkN k 10 p.2 ∧
      ∀ a b c, a < 10 → b < 16 → c < 256 → Good k p.1 a b c) := by
  unfold fillBoxes
  refine Ok.forUp (fun i (p : Tables × Vector (BitVec 8) 176) => GoodTyi p.1 ∧ KeyOkN k i p.2 ∧
      (∀ a b c, a < 10 → b < 16 → c < 256 → a < i → Good k p.1 a b c) ∧
      (∀ a b c, a < 10 → b < 16 → c < 256 → a < i → GoodIn m p.1.mixBijIn a b c)) (by omega)
    ⟨hty, keyOkN_zero hk, by omega, by omega⟩ ?_ (fun p h => ⟨h.1, h.2.1, fun a b c ha hb hc => h.2.2.1 a b c ha hb hc ha⟩)
  rintro i ⟨T, ek⟩ - hi ⟨hty, hk, hg, hin⟩
  simp only at hty hk hg hin ⊢
  refine Ok.bind (shiftKey_ok env hi hk) ?_
  intro ek hk
  refine Ok.bind (P := fun T => GoodTyi T ∧
      (∀ a b c, a < 10 → b < 16 → c < 256 → a < i + 1 → Good k T a b c) ∧
      (∀ a b c, a < 10 → b < 16 → c < 256 → a < i + 1 → GoodIn m T.mixBijIn a b c)) ?_ ?_
  · refine Ok.forUp (fun j (T : Tables) => GoodTyi T ∧
      (∀ a b c, a < 10 → b < 16 → c < 256 → a < i ∨ (a = i ∧ b < j) → Good k T a b c) ∧
      (∀ a b c, a < 10 → b < 16 → c < 256 → a < i ∨ (a = i ∧ b < j) → GoodIn m T.mixBijIn a b c)) (by omega)
      ⟨hty, fun a b c ha hb hc h => hg a b c ha hb hc (by omega), fun a b c ha hb hc h => hin a b c ha hb hc (by omega)⟩
      ?_ (fun T h => ⟨h.1, fun a b c ha hb hc hh => h.2.1 a b c ha hb hc (by omega),
        fun a b c ha hb hc hh => h.2.2 a b c ha hb hc (by omega)⟩)
    rintro j T - hj ⟨hty, hg, hin⟩
    refine Ok.bind (P := fun t =>
      ∀ a b c, a < 10 → b < 16 → c < 256 → a < i ∨ (a = i ∧ b < j + 1) → GoodIn m t a b c) ?_ ?_
    · refine Ok.forUp (fun x (t : Vector (Vector (Vector (BitVec 32) 256) 16) 10) =>
        ∀ a b c, a < 10 → b < 16 → c < 256 → a < i ∨ (a = i ∧ (b < j ∨ (b = j ∧ c < x))) → GoodIn m t a b c) (by omega)
        (fun a b c ha hb hc h => hin a b c ha hb hc (by omega)) ?_
        (fun t h a b c ha hb hc hh => h a b c ha hb hc (by omega))
      intro x t _ hx h
      rw [rd3_get m.mb_8x8 hi hj (by omega), C_pure_bind, hl.u8, C_pure_bind]
      obtain ⟨t', ht, gt⟩ := wr3_get t (i := i) (k := j) (t := x) hi hj hx
        ((lin (((m.mb_8x8[i]!)[j]!)[0]!) (BitVec.ofNat 8 x)).setWidth 32)
      rw [ht, Ok.ok_iff]
      intro a b c ha hb hc hh
      unfold GoodIn
      rw [gt a b c ha hb hc]
      by_cases d : a = i ∧ b = j ∧ c = x
      · obtain ⟨rfl, rfl, rfl⟩ := d
        rw [if_pos ⟨rfl, rfl, rfl⟩]
      · rw [if_neg d]
        exact h a b c ha hb hc (by omega)
    · intro t ht
      refine Ok.forUp (fun x (T : Tables) => GoodTyi T ∧
        (∀ a b c, a < 10 → b < 16 → c < 256 → a < i ∨ (a = i ∧ (b < j ∨ (b = j ∧ c < x))) → Good k T a b c) ∧
        (∀ a b c, a < 10 → b < 16 → c < 256 → a < i ∨ (a = i ∧ b < j + 1) → GoodIn m T.mixBijIn a b c)) (by omega)
        ⟨hty, fun a b c ha hb hc h => hg a b c ha hb hc (by omega), ht⟩ ?_
        (fun T h => ⟨h.1, fun a b c ha hb hc hh => h.2.1 a b c ha hb hc (by omega), h.2.2⟩)
      rintro x T - hx ⟨hty, hg, hin⟩
      refine (fillBox_ok hl hm k ek i j x hi hj hx hk T hty
        (fun a ha y hy => hin a j y (by omega) hj hy (by omega))).mono ?_
      rintro T' ⟨e1, e2, hg'⟩
      refine ⟨?_, ?_, ?_⟩
      · unfold GoodTyi
        rw [e1]
        exact hty
      · intro a b c ha hb hc hh
        apply hg' a b c ha hb hc
        by_cases d : a = i ∧ b = j ∧ c = x
        · exact .inr d
        · exact .inl (hg a b c ha hb hc (by omega))
      · rw [e2]
        exact hin
  · rintro T ⟨hty, hg, hin⟩
    exact (Ok.pure_iff _ _).2 ⟨hty, hk, hg, hin⟩

end WB.aes
