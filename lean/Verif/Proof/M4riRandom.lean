import Mathlib.SetTheory.Cardinal.Finite
import Verif.Proof.M4riMove
import Verif.Proof.M4riPack
import Verif.Proof.SpCount

/-!
# The distribution of random words and random matrices in M4RI (helper lemmas)
-/
namespace WB.m4w

/-- If all fibres of `f` are in bijection with each other, they have `|α| / |β|` elements. -/
theorem fibre_card {α β : Type} (f : α → β) (b₀ : β) (e : ∀ b, {a // f a = b} ≃ {a // f a = b₀}) (b : β) : Nat.card {a // f a = b} * Nat.card β = Nat.card α := by
  have e1 : α ≃ β × {a // f a = b₀} := (Equiv.sigmaFiberEquiv f).symm.trans ((Equiv.sigmaCongrRight e).trans (Equiv.sigmaEquivProd _ _))
  rw [Nat.card_congr e1, Nat.card_prod, Nat.card_congr (e b), Nat.mul_comm]

/-- The bijections for a map that turns an operation `x` into an operation `y`. -/
def fibreEquiv {α β : Type} (f : α → β) (x : α → α → α) (y : β → β → β) (z : β) (sec : β → α) (hs : ∀ b, f (sec b) = b) (hf : ∀ a c, f (x a c) = y (f a) (f c))
    (hx : ∀ a c, x (x a c) c = a) (hy : ∀ b, y b b = z) (hz : ∀ b, y z b = b) (b : β) : {a // f a = b} ≃ {a // f a = z} where
  toFun a := ⟨x a.1 (sec b), by rw [hf, a.2, hs, hy]⟩
  invFun a := ⟨x a.1 (sec b), by rw [hf, a.2, hs, hz]⟩
  left_inv a := Subtype.ext (hx _ _)
  right_inv a := Subtype.ext (hx _ _)

theorem card_bitvec (n : Nat) : Nat.card (BitVec n) = 2 ^ n := by
  rw [Nat.card_congr (⟨fun x => x.toFin, BitVec.ofFin, fun _ => rfl, fun _ => rfl⟩ : BitVec n ≃ Fin (2 ^ n)), Nat.card_eq_fintype_card, Fintype.card_fin]

/-- Three results of `random`. -/
abbrev Draw := BitVec 31 × BitVec 31 × BitVec 31

def drawWord (d : Draw) : Word := m4ri_random_word d.1 d.2.1 d.2.2

def drawXor (d e : Draw) : Draw := (d.1 ^^^ e.1, d.2.1 ^^^ e.2.1, d.2.2 ^^^ e.2.2)

theorem drawXor_cancel (d e : Draw) : drawXor (drawXor d e) e = d := by
  unfold drawXor
  simp only [BitVec.xor_assoc, BitVec.xor_self, BitVec.xor_zero]

theorem drawWord_bit (d : Draw) {b : Nat} (hb : b < 64) : (drawWord d).getLsbD b =
    ((d.1.getLsbD b ^^ (decide (24 ≤ b) && d.2.1.getLsbD (b - 24))) ^^ (decide (48 ≤ b) && d.2.2.getLsbD (b - 48))) := by
  unfold drawWord m4ri_random_word
  simp only [BitVec.getLsbD_xor, BitVec.getLsbD_shiftLeft, BitVec.getLsbD_setWidth, decide_eq_true hb, Bool.true_and]
  have h1 : (!decide (b < 24)) = decide (24 ≤ b) := by rw [Bool.eq_iff_iff]; simp
  have h2 : (!decide (b < 48)) = decide (48 ≤ b) := by rw [Bool.eq_iff_iff]; simp
  rw [h1, h2, decide_eq_true (show b - 24 < 64 by omega), decide_eq_true (show b - 48 < 64 by omega), Bool.true_and, Bool.true_and]

theorem drawWord_xor (d e : Draw) : drawWord (drawXor d e) = drawWord d ^^^ drawWord e := by
  refine bit_ext fun b hb => ?_
  rw [BitVec.getLsbD_xor, drawWord_bit _ hb, drawWord_bit _ hb, drawWord_bit _ hb]
  unfold drawXor
  simp only [BitVec.getLsbD_xor]
  generalize decide (24 ≤ b) = p, decide (48 ≤ b) = q
  generalize d.1.getLsbD b = x1, d.2.1.getLsbD (b - 24) = x2, d.2.2.getLsbD (b - 48) = x3, e.1.getLsbD b = y1, e.2.1.getLsbD (b - 24) = y2, e.2.2.getLsbD (b - 48) = y3
  cases p <;> cases q <;> cases x1 <;> cases x2 <;> cases x3 <;> cases y1 <;> cases y2 <;> cases y3 <;> rfl

/-- Results of `random` that give the word `w`. -/
def wordDraw (w : Word) : Draw := ((w.setWidth 24).setWidth 31, ((w >>> 24).setWidth 24).setWidth 31, ((w >>> 48).setWidth 16).setWidth 31)

theorem drawWord_wordDraw (w : Word) : drawWord (wordDraw w) = w := by
  refine bit_ext fun b hb => ?_
  rw [drawWord_bit _ hb]
  unfold wordDraw
  simp only [BitVec.getLsbD_setWidth, BitVec.getLsbD_ushiftRight]
  by_cases h1 : b < 24
  · rw [decide_eq_false (show ¬ 24 ≤ b by omega), decide_eq_false (show ¬ 48 ≤ b by omega), decide_eq_true h1, decide_eq_true (show b < 31 by omega)]; simp
  · rw [decide_eq_true (show 24 ≤ b by omega), decide_eq_false h1]
    by_cases h2 : b < 48
    · rw [decide_eq_false (show ¬ 48 ≤ b by omega), decide_eq_true (show b - 24 < 24 by omega), decide_eq_true (show b - 24 < 31 by omega), show 24 + (b - 24) = b by omega]; simp
    · rw [decide_eq_true (show 48 ≤ b by omega), decide_eq_false (show ¬ b - 24 < 24 by omega), decide_eq_true (show b - 48 < 31 by omega), decide_eq_true (show b - 48 < 16 by omega),
        show 48 + (b - 48) = b by omega]; simp

theorem draw_card : Nat.card Draw = 2 ^ 93 := by
  rw [Nat.card_prod, Nat.card_prod, card_bitvec]; norm_num

theorem word_fibre (w : Word) : Nat.card {d : Draw // drawWord d = w} * 2 ^ 64 = 2 ^ 93 := by
  rw [← draw_card, ← card_bitvec 64]
  exact fibre_card drawWord 0 (fibreEquiv drawWord drawXor (· ^^^ ·) 0 wordDraw drawWord_wordDraw drawWord_xor drawXor_cancel (fun b => BitVec.xor_self) (fun b => BitVec.zero_xor)) w

/-! ## Matrices -/

/-- The matrix whose words are drawn one after the other. -/
def drawMat (r c : Nat) (d : Fin (r * ((c + 63) / 64)) → Draw) : Matrix (Fin r) (Fin c) (ZMod 2) := Matrix.of fun i j =>
  bitF ((drawWord (d ⟨i * ((c + 63) / 64) + j / 64, by
    have h1 := i.2
    have h2 := j.2
    calc _ < i * ((c + 63) / 64) + (c + 63) / 64 := by omega
      _ = (i + 1) * ((c + 63) / 64) := (Nat.succ_mul _ _).symm
      _ ≤ _ := Nat.mul_le_mul_right _ h1⟩)).getLsbD (j % 64))

theorem bitF_add (a b : Bool) : bitF (a ^^ b) = bitF a + bitF b := by cases a <;> cases b <;> decide

theorem mat_add_self {r c : Nat} (A : Matrix (Fin r) (Fin c) (ZMod 2)) : A + A = 0 := by
  ext i j
  exact CharTwo.add_self_eq_zero _

theorem drawMat_fibre {r c : Nat} (A : Matrix (Fin r) (Fin c) (ZMod 2)) : Nat.card {d // drawMat r c d = A} * 2 ^ (r * c) = 2 ^ (93 * (r * ((c + 63) / 64))) := by
  have h1 : Nat.card (Matrix (Fin r) (Fin c) (ZMod 2)) = 2 ^ (r * c) := by
    show Nat.card (Fin r → Fin c → ZMod 2) = _
    rw [Nat.card_fun, Nat.card_fun, Nat.card_zmod, Nat.card_eq_fintype_card, Nat.card_eq_fintype_card, Fintype.card_fin, Fintype.card_fin, ← pow_mul, Nat.mul_comm]
  have h2 : Nat.card (Fin (r * ((c + 63) / 64)) → Draw) = 2 ^ (93 * (r * ((c + 63) / 64))) := by
    rw [Nat.card_fun, draw_card, Nat.card_eq_fintype_card, Fintype.card_fin, ← pow_mul]
  rw [← h1, ← h2]
  refine fibre_card (drawMat r c) 0 (fibreEquiv (drawMat r c) (fun d e n => drawXor (d n) (e n)) (· + ·) 0
    (fun A n => wordDraw ((pack r c fun i j => if h : i < r ∧ j < c then decide (A ⟨i, h.1⟩ ⟨j, h.2⟩ = 1) else false).word (n / ((c + 63) / 64)) (n % ((c + 63) / 64)))) ?_ ?_ ?_ ?_ ?_) A
  · intro A
    ext i j
    have hj := j.2
    have hw : 0 < (c + 63) / 64 := by omega
    show bitF ((drawWord (wordDraw _)).getLsbD _) = _
    rw [drawWord_wordDraw]
    have e1 : ((i : Nat) * ((c + 63) / 64) + j / 64) / ((c + 63) / 64) = i := by
      rw [Nat.mul_comm, Nat.mul_add_div hw, Nat.div_eq_of_lt (by omega), Nat.add_zero]
    have e2 : ((i : Nat) * ((c + 63) / 64) + j / 64) % ((c + 63) / 64) = j / 64 := by
      rw [Nat.mul_comm, Nat.mul_add_mod, Nat.mod_eq_of_lt (by omega)]
    dsimp only
    rw [e1, e2]
    show bitF ((pack r c _).bit i j) = _
    rw [pack_bit, decide_eq_true hj, Bool.true_and, dif_pos ⟨i.2, hj⟩]
    have : ∀ x : ZMod 2, bitF (decide (x = 1)) = x := by decide
    exact this _
  · intro d e
    ext i j
    show bitF _ = bitF _ + bitF _
    rw [← bitF_add, drawWord_xor, BitVec.getLsbD_xor]
  · intro d e
    funext n
    exact drawXor_cancel _ _
  · exact fun A => mat_add_self A
  · exact fun A => zero_add A

/-- Sequences of draws whose matrix has a property. -/
theorem drawMat_count {r c : Nat} (p : Matrix (Fin r) (Fin c) (ZMod 2) → Prop) :
    Nat.card {d // p (drawMat r c d)} * 2 ^ (r * c) = Nat.card {A // p A} * 2 ^ (93 * (r * ((c + 63) / 64))) := by
  classical
  let e : {d // p (drawMat r c d)} ≃ Σ A : {A // p A}, {d // drawMat r c d = A.1} :=
    ⟨fun d => ⟨⟨drawMat r c d.1, d.2⟩, d.1, rfl⟩, fun x => ⟨x.2.1, by rw [x.2.2]; exact x.1.2⟩, fun d => rfl, fun ⟨⟨A, hA⟩, d, hd⟩ => by
      dsimp only at hd
      subst hd
      rfl⟩
  haveI : Finite Draw := Nat.finite_of_card_ne_zero (by rw [draw_card]; exact pow_ne_zero _ (by decide))
  rw [Nat.card_congr e, Nat.card_sigma, Finset.sum_mul, Finset.sum_congr rfl fun A _ => drawMat_fibre A.1, Finset.sum_const, smul_eq_mul, Nat.card_eq_fintype_card]
  rfl

theorem quarter_step (n : Nat) : 2 ^ ((n + 1) * (n + 1)) * (2 ^ (n + 1) + 2) ≤ 4 * (∏ i : Fin (n + 1), (2 ^ (n + 1) - 2 ^ (i : Nat))) * 2 ^ (n + 1) := by
  induction n with
  | zero => decide
  | succ n ih =>
    have e : ∏ i : Fin (n + 1 + 1), (2 ^ (n + 1 + 1) - 2 ^ (i : Nat)) = (2 ^ (n + 1 + 1) - 1) * (2 ^ (n + 1) * ∏ i : Fin (n + 1), (2 ^ (n + 1) - 2 ^ (i : Nat))) := by
      rw [Fin.prod_univ_succ]
      congr 1
      have : ∀ i : Fin (n + 1), 2 ^ (n + 1 + 1) - 2 ^ (i.succ : Nat) = 2 * (2 ^ (n + 1) - 2 ^ (i : Nat)) := fun i => by
        rw [Fin.val_succ, pow_succ 2 (n + 1), pow_succ 2 (i : Nat)]; omega
      rw [Finset.prod_congr rfl fun i _ => this i, Finset.prod_mul_distrib, Finset.prod_const, Finset.card_univ, Fintype.card_fin]
    rw [e]
    generalize (∏ i : Fin (n + 1), (2 ^ (n + 1) - 2 ^ (i : Nat))) = G at *
    have hx : 2 ≤ 2 ^ (n + 1) := by rw [pow_succ]; have := Nat.one_le_two_pow (n := n); omega
    rw [show (n + 1 + 1) * (n + 1 + 1) = (n + 1) * (n + 1) + (n + 1) + (n + 1) + 1 by ring, pow_succ, pow_add, pow_add, show 2 ^ (n + 1 + 1) = 2 * 2 ^ (n + 1) by rw [pow_succ, Nat.mul_comm]]
    generalize 2 ^ ((n + 1) * (n + 1)) = Y at *
    generalize 2 ^ (n + 1) = x at *
    obtain ⟨z, hz⟩ : ∃ z, 2 * x - 1 = z := ⟨_, rfl⟩
    have hz' : 2 * x = z + 1 := by omega
    rw [hz]
    calc Y * x * x * 2 * (2 * x + 2) = (x * (2 * x + 2)) * (2 * x * Y) := by ring
      _ ≤ (z * (x + 2)) * (2 * x * Y) := Nat.mul_le_mul_right _ (by nlinarith)
      _ = (2 * x * z) * (Y * (x + 2)) := by ring
      _ ≤ (2 * x * z) * (4 * G * x) := Nat.mul_le_mul_left _ ih
      _ = _ := by ring

/-- More than a quarter of the square matrices have an inverse. -/
theorem quarter (n : Nat) : 2 ^ (n * n) < 4 * ∏ i : Fin n, (2 ^ n - 2 ^ (i : Nat)) := by
  cases n with
  | zero => decide
  | succ n =>
    have h := quarter_step n
    generalize (∏ i : Fin (n + 1), (2 ^ (n + 1) - 2 ^ (i : Nat))) = G at *
    have hY : 0 < 2 ^ ((n + 1) * (n + 1)) := Nat.pow_pos (by decide)
    have hx : 0 < 2 ^ (n + 1) := Nat.pow_pos (by decide)
    generalize 2 ^ ((n + 1) * (n + 1)) = Y at *
    generalize 2 ^ (n + 1) = x at *
    by_contra hc
    have : 4 * G * x ≤ Y * x := Nat.mul_le_mul_right _ (by omega)
    nlinarith

end WB.m4w
