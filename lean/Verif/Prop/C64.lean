import Verif.Proof.LowMCGen
import Verif.Prop.C12
import Verif.Prop.C13
import Verif.Prop.C63

/-!
# C64 — the matrices of the LowMC method

`/repo/test/LowMCMethod_text.cpp`.  Generated by `tools/gen_c64.py`.

In the statements `b` and `s` are the bits returned by successive calls of `getrandbit` and the states of
its register (`C63_calls` says that they exist for every initial state).  The matrix `drawnSum n pos b J k q`
has the entries `J i j` plus the bits number `k + pos i j`, `k + n * n + pos i j`, … (`q` bits).
-/
namespace WB
open Matrix
open lowmc (getrandbit)

/-- The bits and states exist for every content of the register, in particular for the initial one. -/
example (st : BitVec 80) : ∃ (b : Nat → Bool) (s : Nat → BitVec 80), s 0 = st ∧
    ∀ i, getrandbit 80 (s i) = .ok (b i, s (i + 1)) := by
  obtain ⟨b, s, h0, h, _⟩ := C63_calls st
  exact ⟨b, s, h0, fun i => h i 80 le_rfl⟩

/-- The bits 4 to 7 of the rows of an `M4` object. -/
def highM4 (A : M4) : Matrix (Fin 4) (Fin 4) (ZMod 2) := fun i j => bitF (A[i].getLsbD (7 - j))

/-- What `isinvertM4` accepts, dirty rows included: the low halves form an invertible matrix, and the
combination of rows that gives the last unit vector gives zero in the high halves. -/
theorem isinvertM4_high (A : M4) : isinvertM4 A = .ok 1 ↔
    IsUnit (mat4 A) ∧ ∀ j, ((mat4 A)⁻¹ * highM4 A) 3 j = 0 := by
  rw [C34_isinvertM4_exact]
  refine and_congr_right fun hu => ?_
  have hdet := (Matrix.isUnit_iff_isUnit_det _).1 hu
  have key : ∀ c : Fin 4 → Bool,
      (((if c 0 then A[0] else 0) ^^^ (if c 1 then A[1] else 0)) ^^^
        ((if c 2 then A[2] else 0) ^^^ (if c 3 then A[3] else 0)) = 0x01#8 ↔
      (fun i => bitF (c i)) ᵥ* mat4 A = Pi.single 3 1 ∧ (fun i => bitF (c i)) ᵥ* highM4 A = 0) := by
    intro c
    have eb : ∀ t, bitF ((((if c 0 then A[0] else 0) ^^^ (if c 1 then A[1] else 0)) ^^^
        ((if c 2 then A[2] else 0) ^^^ (if c 3 then A[3] else 0))).getLsbD t) =
        bitF (c 0) * bitF (A[0].getLsbD t) + bitF (c 1) * bitF (A[1].getLsbD t) +
        bitF (c 2) * bitF (A[2].getLsbD t) + bitF (c 3) * bitF (A[3].getLsbD t) := by
      intro t
      rw [BitVec.getLsbD_xor, BitVec.getLsbD_xor, BitVec.getLsbD_xor, bitF_xor', bitF_xor', bitF_xor', ← add_assoc]
      congr 1
      · congr 1
        · congr 1
          · cases c 0 <;> simp [bitF]
          · cases c 1 <;> simp [bitF]
        · cases c 2 <;> simp [bitF]
      · cases c 3 <;> simp [bitF]
    have el : ∀ j, ((fun i => bitF (c i)) ᵥ* mat4 A) j = bitF ((((if c 0 then A[0] else 0) ^^^
        (if c 1 then A[1] else 0)) ^^^ ((if c 2 then A[2] else 0) ^^^ (if c 3 then A[3] else 0))).getLsbD (3 - j)) := by
      intro j
      rw [eb]
      simp only [Matrix.vecMul, dotProduct, Fin.sum_univ_four]
      rfl
    have eh : ∀ j, ((fun i => bitF (c i)) ᵥ* highM4 A) j = bitF ((((if c 0 then A[0] else 0) ^^^
        (if c 1 then A[1] else 0)) ^^^ ((if c 2 then A[2] else 0) ^^^ (if c 3 then A[3] else 0))).getLsbD (7 - j)) := by
      intro j
      rw [eb]
      simp only [Matrix.vecMul, dotProduct, Fin.sum_univ_four]
      rfl
    generalize hx : (((if c 0 then A[0] else 0) ^^^ (if c 1 then A[1] else 0)) ^^^
        ((if c 2 then A[2] else 0) ^^^ (if c 3 then A[3] else 0))) = x at el eh
    constructor
    · rintro rfl
      constructor
      · funext j
        rw [el]
        revert j
        decide
      · funext j
        rw [eh]
        revert j
        decide
    · rintro ⟨h1, h2⟩
      have a : ∀ j : Fin 4, bitF (x.getLsbD (3 - j)) = (Pi.single 3 1 : Fin 4 → ZMod 2) j := fun j => by
        rw [← el, h1]
      have b : ∀ j : Fin 4, bitF (x.getLsbD (7 - j)) = 0 := fun j => by rw [← eh, h2]; rfl
      clear hx el eh
      revert x
      decide +kernel
  constructor
  · rintro ⟨c, hc⟩
    obtain ⟨h1, h2⟩ := (key c).1 hc
    intro j
    have hv : (fun i => bitF (c i)) = (mat4 A)⁻¹ 3 := by
      have := congrArg (· ᵥ* (mat4 A)⁻¹) h1
      simp only [Matrix.vecMul_vecMul, Matrix.mul_nonsing_inv _ hdet, Matrix.vecMul_one] at this
      rw [this, Matrix.single_one_vecMul]
      rfl
    have := congrFun h2 j
    rw [hv] at this
    exact this
  · intro h
    have h1 : (mat4 A)⁻¹ 3 ᵥ* mat4 A = Pi.single 3 1 := by
      have : (mat4 A)⁻¹ 3 ᵥ* mat4 A = ((mat4 A)⁻¹ * mat4 A) 3 := rfl
      rw [this, Matrix.nonsing_inv_mul _ hdet]
      funext j
      revert j
      decide
    have h2 : (mat4 A)⁻¹ 3 ᵥ* highM4 A = 0 := funext h
    generalize (mat4 A)⁻¹ 3 = y at h1 h2
    have hc : (fun i => bitF (decide (y i = 1))) = y := by
      funext i
      generalize y i = z
      revert z
      decide
    refine ⟨fun i => decide (y i = 1), (key fun i => decide (y i = 1)).2 ?_⟩
    rw [hc]
    exact ⟨h1, h2⟩

theorem lowmc.addS_high (b : Nat → Bool) (k : Nat) (A : M4) :
    highM4 (lowmc.addS lowmc.identM4 b k A) = highM4 A := by
  funext i j
  have hi := i.2
  show bitF ((lowmc.addS lowmc.identM4 b k A)[i.val].getLsbD (7 - j)) = bitF (A[i.val].getLsbD (7 - j))
  unfold lowmc.addS
  rw [Vector.getElem_ofFn, BitVec.getLsbD_xor, lowmc.rowAcc_high _ lowmc.ident4_hI _ _ _ _ (by omega), Bool.xor_false]
  rfl

/-- C64: `RandbitMatM4` adds the next 16 random bits to what the matrix held (low halves of the rows). -/
theorem C64_RandbitMatM4 (fuel : Nat) (b : Nat → Bool) (s : Nat → BitVec 80)
    (hb : ∀ i, getrandbit fuel (s i) = .ok (b i, s (i + 1))) (A : M4) (k : Nat) :
    ∃ R, lowmc.RandbitMatM4 fuel A (s k) = .ok (R, s (k + 4 * 4)) ∧
      (∀ i j, mat4 R i j = mat4 A i j + bitF (b (k + (4 * i + j)))) ∧
      highM4 R = highM4 A :=
  ⟨_, lowmc.randbit4_run hb A k, lowmc.addS_mat lowmc.identM4 (by norm_num) lowmc.ident4_hI b k A, lowmc.addS_high b k A⟩

theorem lowmc.seq4_mat (b : Nat → Bool) (k : Nat) (T : Nat → M4)
    (hT : ∀ q, T (q + 1) = lowmc.addS lowmc.identM4 b (k + 4 * 4 * q) (T q)) (q : Nat) :
    mat4 (T q) = drawnSum 4 (fun i j => 4 * i + j) b (mat4 (T 0)) k q := by
  induction q with
  | zero => rw [drawnSum_zero]
  | succ q ih =>
    rw [drawnSum_succ, ← ih, hT q]
    funext i j
    show _ = _ + bitF (b (k + 4 * 4 * q + (4 * i.val + j.val)))
    exact lowmc.addS_mat lowmc.identM4 (by norm_num) lowmc.ident4_hI b (k + 4 * 4 * q) (T q) i j

theorem lowmc.seq4_high (b : Nat → Bool) (k : Nat) (T : Nat → M4)
    (hT : ∀ q, T (q + 1) = lowmc.addS lowmc.identM4 b (k + 4 * 4 * q) (T q)) (q : Nat) :
    highM4 (T q) = highM4 (T 0) := by
  induction q with
  | zero => rfl
  | succ q ih => rw [hT, lowmc.addS_high, ih]

open Classical in
theorem isinvertM4_dec (A : M4) : (do pure ((← isinvertM4 A) == 0) : C Bool) =
    .ok (decide ¬ (IsUnit (mat4 A) ∧ ∀ j, ((mat4 A)⁻¹ * highM4 A) 3 j = 0)) := by
  obtain ⟨r, hr, h01, _⟩ := isinvertM4_any A
  have hx := isinvertM4_high A
  rw [hr]
  rcases h01 with rfl | rfl
  · have : ¬ (IsUnit (mat4 A) ∧ ∀ j, ((mat4 A)⁻¹ * highM4 A) 3 j = 0) := fun h => by
      have := hx.2 h
      rw [hr] at this
      exact absurd (Except.ok.inj this) (by decide)
    rw [decide_eq_true this]
    rfl
  · rw [decide_eq_false (not_not_intro (hx.1 hr))]
    rfl

/-- C64: `InvTMatM4` goes through the sums of its stack contents with the blocks of 16 random bits and stores
the first that is accepted; it goes on for ever when there is none.  A sum is accepted if it is
invertible and the row combination giving the last unit vector gives zero in the high halves of the
stack contents.  `invsM4` then stores the inverse. -/
theorem C64_InvTMatM4 (env : Env) (fuel tries : Nat) (b : Nat → Bool) (s : Nat → BitVec 80)
    (hb : ∀ i, getrandbit fuel (s i) = .ok (b i, s (i + 1))) (Mat B0 : M4) (k : Nat)
    (P : Nat → Matrix (Fin 4) (Fin 4) (ZMod 2))
    (hP : P = drawnSum 4 (fun i j => 4 * i + j) b (mat4 (env.junkArr 8 4)) k)
    (Good : Nat → Prop)
    (hG : ∀ q, Good q ↔ IsUnit (P q) ∧ ∀ j, ((P q)⁻¹ * highM4 (env.junkArr 8 4)) 3 j = 0) :
    (∃ m A B, 1 ≤ m ∧ m ≤ tries ∧ (∀ q, 1 ≤ q → q < m → ¬ Good q) ∧ Good m ∧
      lowmc.InvTMatM4 env fuel tries Mat (s k) = .ok (A, s (k + 16 * m)) ∧ mat4 A = P m ∧
      invsM4 A B0 = .ok B ∧ mat4 A * mat4 B = 1 ∧ mat4 B * mat4 A = 1) ∨
    ((∀ q, 1 ≤ q → q ≤ tries → ¬ Good q) ∧
      lowmc.InvTMatM4 env fuel tries Mat (s k) = .error .diverge) := by
  classical
  let T : Nat → M4 := fun q => Nat.rec (env.junkArr 8 4) (fun q A => lowmc.addS lowmc.identM4 b (k + 4 * 4 * q) A) q
  have hT : ∀ q, T (q + 1) = lowmc.addS lowmc.identM4 b (k + 4 * 4 * q) (T q) := fun q => rfl
  have hm : ∀ q, mat4 (T q) = P q := fun q => by rw [hP]; exact lowmc.seq4_mat b k T hT q
  have hh : ∀ q, highM4 (T q) = highM4 (env.junkArr 8 4) := fun q => lowmc.seq4_high b k T hT q
  have hg : ∀ q, (IsUnit (mat4 (T q)) ∧ ∀ j, ((mat4 (T q))⁻¹ * highM4 (T q)) 3 j = 0) ↔ Good q := fun q => by
    rw [hG, hm, hh]
  rcases lowmc.draw_run (rand := lowmc.RandbitMatM4 fuel) (c := 4 * 4) (k := k) (T := T) (s := s)
    (fun q => by rw [lowmc.randbit4_run hb, Nat.add_assoc, ← Nat.mul_succ]) isinvertM4_dec copyM4
    copyM4_eq Mat tries with ⟨m, h1, h2, h3, h4, h5⟩ | ⟨h1, h2⟩
  · left
    have g : Good m := by
      rw [← hg]
      by_contra hcon
      rw [decide_eq_true hcon] at h4
      exact absurd h4 (by simp)
    have hu : IsUnit (mat4 (T m)) := by rw [hm]; exact ((hG m).1 g).1
    obtain ⟨B, hB, -, -, hi⟩ := invsM4_ok (T m) B0
    have h' := hi ((isUnit_iff_det _).1 hu)
    refine ⟨m, T m, B, h1, h2, fun q hq hqm => ?_, g, h5, hm m, hB, mat_comm h', h'⟩
    have := of_decide_eq_true (h3 q hq hqm)
    rwa [hg] at this
  · right
    refine ⟨fun q hq hqt => ?_, h2⟩
    have := of_decide_eq_true (h1 q hq hqt)
    rwa [hg] at this

/-- C64: when the high halves of the stack contents form an invertible matrix, `InvTMatM4` never
returns, whatever the state of the random bits: no number of attempts is enough. -/
theorem C64_InvTMatM4_never (env : Env) (h : IsUnit (highM4 (env.junkArr 8 4))) (fuel tries : Nat)
    (hf : 80 ≤ fuel) (Mat : M4) (st : BitVec 80) :
    lowmc.InvTMatM4 env fuel tries Mat st = .error .diverge := by
  obtain ⟨b, s, h0, hb, _⟩ := C63_calls st
  rcases C64_InvTMatM4 env fuel tries b s (fun i => hb i fuel hf) Mat Mat 0 _ rfl _ (fun q => Iff.rfl) with
    ⟨m, A, B, _, _, _, ⟨hu, hz⟩, _⟩ | ⟨_, h2⟩
  · exfalso
    have hu2 : IsUnit ((drawnSum 4 (fun i j => 4 * i + j) b (mat4 (env.junkArr 8 4)) 0 m)⁻¹ *
        highM4 (env.junkArr 8 4)) := by
      apply IsUnit.mul _ h
      rw [Matrix.isUnit_nonsing_inv_iff]
      exact hu
    have hd := (Matrix.isUnit_iff_isUnit_det _).1 hu2
    rw [Matrix.det_eq_zero_of_row_eq_zero 3 hz] at hd
    exact absurd hd (by simp)
  · rw [h0] at h2
    exact h2

/-- Stack contents with which `InvTMatM4` never returns exist. -/
example : IsUnit (highM4 ((lowmc.envS (#v[0x80, 0x40, 0x20, 0x10] : M4)).junkArr 8 4)) := by
  rw [lowmc.envS_junk]
  have : highM4 #v[0x80, 0x40, 0x20, 0x10] = 1 := by decide
  rw [this]
  exact isUnit_one

/-- C64: with clean stack contents (high halves zero) the accepted sums are the invertible ones. -/
theorem C64_InvTMatM4_clean (env : Env) (h : CleanM4 (env.junkArr 8 4))
    (P : Matrix (Fin 4) (Fin 4) (ZMod 2)) :
    (IsUnit P ∧ ∀ j, (P⁻¹ * highM4 (env.junkArr 8 4)) 3 j = 0) ↔ IsUnit P := by
  have hz : highM4 (env.junkArr 8 4) = 0 := by
    funext i j
    have hi : (env.junkArr 8 4)[i].toNat < 16 := h i
    show bitF ((env.junkArr 8 4)[i].getLsbD (7 - j)) = 0
    have : (env.junkArr 8 4)[i].getLsbD (7 - j) = false := by
      refine Nat.testBit_lt_two_pow (lt_of_lt_of_le hi ?_)
      rw [show 16 = 2 ^ 4 by norm_num]
      exact Nat.pow_le_pow_right (by norm_num) (by have := j.2; omega)
    rw [this]
    rfl
  rw [hz, Matrix.mul_zero]
  simp

/-- C64: the result depends on what happens to be on the stack: every invertible matrix is returned at
the first attempt for some stack contents, whatever the state of the random bits. -/
theorem C64_stack_M4 (T : M4) (hT : CleanM4 T) (hu : IsUnit (mat4 T)) (st : BitVec 80) : ∃ env : Env, ∀ fuel tries Mat,
    80 ≤ fuel → 1 ≤ tries → ∃ st', lowmc.InvTMatM4 env fuel tries Mat st = .ok (T, st') := by
  obtain ⟨b, s, h0, hb, _⟩ := C63_calls st
  refine ⟨lowmc.envS (lowmc.addS lowmc.identM4 b 0 T), fun fuel tries Mat hf ht => ⟨s (0 + 4 * 4), ?_⟩⟩
  obtain ⟨t, rfl⟩ : ∃ t, tries = t + 1 := ⟨tries - 1, by omega⟩
  have hiv : isinvertM4 T = .ok 1 := by rw [C12_isinvertM4 T hT, if_pos hu]
  have h1 := lowmc.randbit4_run (fun i => hb i fuel hf) (lowmc.addS lowmc.identM4 b 0 T) 0
  rw [lowmc.addS_cancel, h0] at h1
  unfold lowmc.InvTMatM4
  rw [lowmc.envS_junk, lowmc.LM_bind h1]
  unfold lowmc.whileL
  have h2 : (do pure ((← isinvertM4 T) == 0) : C Bool) = .ok false := by rw [hiv]; rfl
  refine (lowmc.LM_bind (a := T) (st' := s (0 + 4 * 4)) ?_).trans ?_
  · rw [lowmc.LM_lift h2]
    rfl
  · rw [copyM4_eq]
    rfl

/-- C64: `RandbitMatM8` adds the next 64 random bits to what the matrix held. -/
theorem C64_RandbitMatM8 (fuel : Nat) (b : Nat → Bool) (s : Nat → BitVec 80)
    (hb : ∀ i, getrandbit fuel (s i) = .ok (b i, s (i + 1))) (A : M8) (k : Nat) :
    ∃ R, lowmc.RandbitMatM8 fuel A (s k) = .ok (R, s (k + 8 * 8)) ∧
      (∀ i j, mat8 R i j = mat8 A i j + bitF (b (k + (8 * i + j)))) :=
  ⟨_, lowmc.randbit8_run hb A k, lowmc.addS_mat lowmc.identM8 (by norm_num) lowmc.ident8_hI b k A⟩

theorem lowmc.seq8_mat (b : Nat → Bool) (k : Nat) (T : Nat → M8)
    (hT : ∀ q, T (q + 1) = lowmc.addS lowmc.identM8 b (k + 8 * 8 * q) (T q)) (q : Nat) :
    mat8 (T q) = drawnSum 8 (fun i j => 8 * i + j) b (mat8 (T 0)) k q := by
  induction q with
  | zero => rw [drawnSum_zero]
  | succ q ih =>
    rw [drawnSum_succ, ← ih, hT q]
    funext i j
    show _ = _ + bitF (b (k + 8 * 8 * q + (8 * i.val + j.val)))
    exact lowmc.addS_mat lowmc.identM8 (by norm_num) lowmc.ident8_hI b (k + 8 * 8 * q) (T q) i j

/-- C64: `InvTMatM8` goes through the sums of its stack contents with the blocks of 64 random bits and
stores the first that is invertible; it goes on for ever when there is none.  `invsM8` then stores
the inverse. -/
theorem C64_InvTMatM8 (env : Env) (fuel tries : Nat) (b : Nat → Bool) (s : Nat → BitVec 80)
    (hb : ∀ i, getrandbit fuel (s i) = .ok (b i, s (i + 1))) (Mat B0 : M8) (k : Nat)
    (P : Nat → Matrix (Fin 8) (Fin 8) (ZMod 2))
    (hP : P = drawnSum 8 (fun i j => 8 * i + j) b (mat8 (env.junkArr 8 8)) k) :
    (∃ m A B, 1 ≤ m ∧ m ≤ tries ∧ (∀ q, 1 ≤ q → q < m → ¬ IsUnit (P q)) ∧
      lowmc.InvTMatM8 env fuel tries Mat (s k) = .ok (A, s (k + 64 * m)) ∧ mat8 A = P m ∧
      invsM8 A B0 = .ok B ∧ mat8 A * mat8 B = 1 ∧ mat8 B * mat8 A = 1) ∨
    ((∀ q, 1 ≤ q → q ≤ tries → ¬ IsUnit (P q)) ∧
      lowmc.InvTMatM8 env fuel tries Mat (s k) = .error .diverge) := by
  classical
  let T : Nat → M8 := fun q => Nat.rec (env.junkArr 8 8) (fun q A => lowmc.addS lowmc.identM8 b (k + 8 * 8 * q) A) q
  have hT : ∀ q, T (q + 1) = lowmc.addS lowmc.identM8 b (k + 8 * 8 * q) (T q) := fun q => rfl
  have hm : ∀ q, mat8 (T q) = P q := fun q => by rw [hP]; exact lowmc.seq8_mat b k T hT q
  rcases lowmc.draw_run (rand := lowmc.RandbitMatM8 fuel) (c := 8 * 8) (k := k) (T := T) (s := s)
    (cond := fun A => do pure ((← isinvertM8 A) == 0)) (bad := fun A => decide ¬ IsUnit (mat8 A))
    (fun q => by rw [lowmc.randbit8_run hb, Nat.add_assoc, ← Nat.mul_succ])
    (fun A => by
      rw [C12_isinvertM8]
      by_cases hu : IsUnit (mat8 A)
      · rw [if_pos hu, decide_eq_false (not_not_intro hu)]; rfl
      · rw [if_neg hu, decide_eq_true hu]; rfl) copyM8
    copyM8_eq Mat tries with ⟨m, h1, h2, h3, h4, h5⟩ | ⟨h1, h2⟩
  · left
    have hu : IsUnit (mat8 (T m)) := by
      by_contra hcon
      rw [decide_eq_true hcon] at h4
      exact absurd h4 (by simp)
    obtain ⟨B, hB, g1, g2⟩ := C13_invsM8 (T m) B0 hu
    refine ⟨m, T m, B, h1, h2, fun q hq hqm => ?_, h5, hm m, hB, g1, g2⟩
    have := of_decide_eq_true (h3 q hq hqm)
    rwa [hm] at this
  · right
    refine ⟨fun q hq hqt => ?_, h2⟩
    have := of_decide_eq_true (h1 q hq hqt)
    rwa [hm] at this

/-- C64: the result depends on what happens to be on the stack: every invertible matrix is returned at
the first attempt for some stack contents, whatever the state of the random bits. -/
theorem C64_stack_M8 (T : M8) (hu : IsUnit (mat8 T)) (st : BitVec 80) : ∃ env : Env, ∀ fuel tries Mat,
    80 ≤ fuel → 1 ≤ tries → ∃ st', lowmc.InvTMatM8 env fuel tries Mat st = .ok (T, st') := by
  obtain ⟨b, s, h0, hb, _⟩ := C63_calls st
  refine ⟨lowmc.envS (lowmc.addS lowmc.identM8 b 0 T), fun fuel tries Mat hf ht => ⟨s (0 + 8 * 8), ?_⟩⟩
  obtain ⟨t, rfl⟩ : ∃ t, tries = t + 1 := ⟨tries - 1, by omega⟩
  have hiv : isinvertM8 T = .ok 1 := by rw [C12_isinvertM8, if_pos hu]
  have h1 := lowmc.randbit8_run (fun i => hb i fuel hf) (lowmc.addS lowmc.identM8 b 0 T) 0
  rw [lowmc.addS_cancel, h0] at h1
  unfold lowmc.InvTMatM8
  rw [lowmc.envS_junk, lowmc.LM_bind h1]
  unfold lowmc.whileL
  have h2 : (do pure ((← isinvertM8 T) == 0) : C Bool) = .ok false := by rw [hiv]; rfl
  refine (lowmc.LM_bind (a := T) (st' := s (0 + 8 * 8)) ?_).trans ?_
  · rw [lowmc.LM_lift h2]
    rfl
  · rw [copyM8_eq]
    rfl

/-- C64: `RandbitMatM16` adds the next 256 random bits to what the matrix held. -/
theorem C64_RandbitMatM16 (fuel : Nat) (b : Nat → Bool) (s : Nat → BitVec 80)
    (hb : ∀ i, getrandbit fuel (s i) = .ok (b i, s (i + 1))) (A : M16) (k : Nat) :
    ∃ R, lowmc.RandbitMatM16 fuel A (s k) = .ok (R, s (k + 16 * 16)) ∧
      (∀ i j, mat16 R i j = mat16 A i j + bitF (b (k + (16 * i + j)))) :=
  ⟨_, lowmc.randbit16_run hb A k, lowmc.addS_mat lowmc.identM16 (by norm_num) lowmc.ident16_hI b k A⟩

theorem lowmc.seq16_mat (b : Nat → Bool) (k : Nat) (T : Nat → M16)
    (hT : ∀ q, T (q + 1) = lowmc.addS lowmc.identM16 b (k + 16 * 16 * q) (T q)) (q : Nat) :
    mat16 (T q) = drawnSum 16 (fun i j => 16 * i + j) b (mat16 (T 0)) k q := by
  induction q with
  | zero => rw [drawnSum_zero]
  | succ q ih =>
    rw [drawnSum_succ, ← ih, hT q]
    funext i j
    show _ = _ + bitF (b (k + 16 * 16 * q + (16 * i.val + j.val)))
    exact lowmc.addS_mat lowmc.identM16 (by norm_num) lowmc.ident16_hI b (k + 16 * 16 * q) (T q) i j

/-- C64: `InvTMatM16` goes through the sums of its stack contents with the blocks of 256 random bits and
stores the first that is invertible; it goes on for ever when there is none.  `invsM16` then stores
the inverse. -/
theorem C64_InvTMatM16 (env : Env) (fuel tries : Nat) (b : Nat → Bool) (s : Nat → BitVec 80)
    (hb : ∀ i, getrandbit fuel (s i) = .ok (b i, s (i + 1))) (Mat B0 : M16) (k : Nat)
    (P : Nat → Matrix (Fin 16) (Fin 16) (ZMod 2))
    (hP : P = drawnSum 16 (fun i j => 16 * i + j) b (mat16 (env.junkArr 16 16)) k) :
    (∃ m A B, 1 ≤ m ∧ m ≤ tries ∧ (∀ q, 1 ≤ q → q < m → ¬ IsUnit (P q)) ∧
      lowmc.InvTMatM16 env fuel tries Mat (s k) = .ok (A, s (k + 256 * m)) ∧ mat16 A = P m ∧
      invsM16 A B0 = .ok B ∧ mat16 A * mat16 B = 1 ∧ mat16 B * mat16 A = 1) ∨
    ((∀ q, 1 ≤ q → q ≤ tries → ¬ IsUnit (P q)) ∧
      lowmc.InvTMatM16 env fuel tries Mat (s k) = .error .diverge) := by
  classical
  let T : Nat → M16 := fun q => Nat.rec (env.junkArr 16 16) (fun q A => lowmc.addS lowmc.identM16 b (k + 16 * 16 * q) A) q
  have hT : ∀ q, T (q + 1) = lowmc.addS lowmc.identM16 b (k + 16 * 16 * q) (T q) := fun q => rfl
  have hm : ∀ q, mat16 (T q) = P q := fun q => by rw [hP]; exact lowmc.seq16_mat b k T hT q
  rcases lowmc.draw_run (rand := lowmc.RandbitMatM16 fuel) (c := 16 * 16) (k := k) (T := T) (s := s)
    (cond := fun A => do pure ((← isinvertM16 A) == 0)) (bad := fun A => decide ¬ IsUnit (mat16 A))
    (fun q => by rw [lowmc.randbit16_run hb, Nat.add_assoc, ← Nat.mul_succ])
    (fun A => by
      rw [C12_isinvertM16]
      by_cases hu : IsUnit (mat16 A)
      · rw [if_pos hu, decide_eq_false (not_not_intro hu)]; rfl
      · rw [if_neg hu, decide_eq_true hu]; rfl) copyM16
    copyM16_eq Mat tries with ⟨m, h1, h2, h3, h4, h5⟩ | ⟨h1, h2⟩
  · left
    have hu : IsUnit (mat16 (T m)) := by
      by_contra hcon
      rw [decide_eq_true hcon] at h4
      exact absurd h4 (by simp)
    obtain ⟨B, hB, g1, g2⟩ := C13_invsM16 (T m) B0 hu
    refine ⟨m, T m, B, h1, h2, fun q hq hqm => ?_, h5, hm m, hB, g1, g2⟩
    have := of_decide_eq_true (h3 q hq hqm)
    rwa [hm] at this
  · right
    refine ⟨fun q hq hqt => ?_, h2⟩
    have := of_decide_eq_true (h1 q hq hqt)
    rwa [hm] at this

/-- C64: the result depends on what happens to be on the stack: every invertible matrix is returned at
the first attempt for some stack contents, whatever the state of the random bits. -/
theorem C64_stack_M16 (T : M16) (hu : IsUnit (mat16 T)) (st : BitVec 80) : ∃ env : Env, ∀ fuel tries Mat,
    80 ≤ fuel → 1 ≤ tries → ∃ st', lowmc.InvTMatM16 env fuel tries Mat st = .ok (T, st') := by
  obtain ⟨b, s, h0, hb, _⟩ := C63_calls st
  refine ⟨lowmc.envS (lowmc.addS lowmc.identM16 b 0 T), fun fuel tries Mat hf ht => ⟨s (0 + 16 * 16), ?_⟩⟩
  obtain ⟨t, rfl⟩ : ∃ t, tries = t + 1 := ⟨tries - 1, by omega⟩
  have hiv : isinvertM16 T = .ok 1 := by rw [C12_isinvertM16, if_pos hu]
  have h1 := lowmc.randbit16_run (fun i => hb i fuel hf) (lowmc.addS lowmc.identM16 b 0 T) 0
  rw [lowmc.addS_cancel, h0] at h1
  unfold lowmc.InvTMatM16
  rw [lowmc.envS_junk, lowmc.LM_bind h1]
  unfold lowmc.whileL
  have h2 : (do pure ((← isinvertM16 T) == 0) : C Bool) = .ok false := by rw [hiv]; rfl
  refine (lowmc.LM_bind (a := T) (st' := s (0 + 16 * 16)) ?_).trans ?_
  · rw [lowmc.LM_lift h2]
    rfl
  · rw [copyM16_eq]
    rfl

/-- C64: `RandbitMatM32` adds the next 1024 random bits to what the matrix held. -/
theorem C64_RandbitMatM32 (fuel : Nat) (b : Nat → Bool) (s : Nat → BitVec 80)
    (hb : ∀ i, getrandbit fuel (s i) = .ok (b i, s (i + 1))) (A : M32) (k : Nat) :
    ∃ R, lowmc.RandbitMatM32 fuel A (s k) = .ok (R, s (k + 32 * 32)) ∧
      (∀ i j, mat32 R i j = mat32 A i j + bitF (b (k + (32 * i + j)))) :=
  ⟨_, lowmc.randbit32_run hb A k, lowmc.addS_mat lowmc.identM32 (by norm_num) lowmc.ident32_hI b k A⟩

theorem lowmc.seq32_mat (b : Nat → Bool) (k : Nat) (T : Nat → M32)
    (hT : ∀ q, T (q + 1) = lowmc.addS lowmc.identM32 b (k + 32 * 32 * q) (T q)) (q : Nat) :
    mat32 (T q) = drawnSum 32 (fun i j => 32 * i + j) b (mat32 (T 0)) k q := by
  induction q with
  | zero => rw [drawnSum_zero]
  | succ q ih =>
    rw [drawnSum_succ, ← ih, hT q]
    funext i j
    show _ = _ + bitF (b (k + 32 * 32 * q + (32 * i.val + j.val)))
    exact lowmc.addS_mat lowmc.identM32 (by norm_num) lowmc.ident32_hI b (k + 32 * 32 * q) (T q) i j

/-- C64: `InvTMatM32` goes through the sums of its stack contents with the blocks of 1024 random bits and
stores the first that is invertible; it goes on for ever when there is none.  `invsM32` then stores
the inverse. -/
theorem C64_InvTMatM32 (env : Env) (fuel tries : Nat) (b : Nat → Bool) (s : Nat → BitVec 80)
    (hb : ∀ i, getrandbit fuel (s i) = .ok (b i, s (i + 1))) (Mat B0 : M32) (k : Nat)
    (P : Nat → Matrix (Fin 32) (Fin 32) (ZMod 2))
    (hP : P = drawnSum 32 (fun i j => 32 * i + j) b (mat32 (env.junkArr 32 32)) k) :
    (∃ m A B, 1 ≤ m ∧ m ≤ tries ∧ (∀ q, 1 ≤ q → q < m → ¬ IsUnit (P q)) ∧
      lowmc.InvTMatM32 env fuel tries Mat (s k) = .ok (A, s (k + 1024 * m)) ∧ mat32 A = P m ∧
      invsM32 A B0 = .ok B ∧ mat32 A * mat32 B = 1 ∧ mat32 B * mat32 A = 1) ∨
    ((∀ q, 1 ≤ q → q ≤ tries → ¬ IsUnit (P q)) ∧
      lowmc.InvTMatM32 env fuel tries Mat (s k) = .error .diverge) := by
  classical
  let T : Nat → M32 := fun q => Nat.rec (env.junkArr 32 32) (fun q A => lowmc.addS lowmc.identM32 b (k + 32 * 32 * q) A) q
  have hT : ∀ q, T (q + 1) = lowmc.addS lowmc.identM32 b (k + 32 * 32 * q) (T q) := fun q => rfl
  have hm : ∀ q, mat32 (T q) = P q := fun q => by rw [hP]; exact lowmc.seq32_mat b k T hT q
  rcases lowmc.draw_run (rand := lowmc.RandbitMatM32 fuel) (c := 32 * 32) (k := k) (T := T) (s := s)
    (cond := fun A => do pure ((← isinvertM32 A) == 0)) (bad := fun A => decide ¬ IsUnit (mat32 A))
    (fun q => by rw [lowmc.randbit32_run hb, Nat.add_assoc, ← Nat.mul_succ])
    (fun A => by
      rw [C12_isinvertM32]
      by_cases hu : IsUnit (mat32 A)
      · rw [if_pos hu, decide_eq_false (not_not_intro hu)]; rfl
      · rw [if_neg hu, decide_eq_true hu]; rfl) copyM32
    copyM32_eq Mat tries with ⟨m, h1, h2, h3, h4, h5⟩ | ⟨h1, h2⟩
  · left
    have hu : IsUnit (mat32 (T m)) := by
      by_contra hcon
      rw [decide_eq_true hcon] at h4
      exact absurd h4 (by simp)
    obtain ⟨B, hB, g1, g2⟩ := C13_invsM32 (T m) B0 hu
    refine ⟨m, T m, B, h1, h2, fun q hq hqm => ?_, h5, hm m, hB, g1, g2⟩
    have := of_decide_eq_true (h3 q hq hqm)
    rwa [hm] at this
  · right
    refine ⟨fun q hq hqt => ?_, h2⟩
    have := of_decide_eq_true (h1 q hq hqt)
    rwa [hm] at this

/-- C64: the result depends on what happens to be on the stack: every invertible matrix is returned at
the first attempt for some stack contents, whatever the state of the random bits. -/
theorem C64_stack_M32 (T : M32) (hu : IsUnit (mat32 T)) (st : BitVec 80) : ∃ env : Env, ∀ fuel tries Mat,
    80 ≤ fuel → 1 ≤ tries → ∃ st', lowmc.InvTMatM32 env fuel tries Mat st = .ok (T, st') := by
  obtain ⟨b, s, h0, hb, _⟩ := C63_calls st
  refine ⟨lowmc.envS (lowmc.addS lowmc.identM32 b 0 T), fun fuel tries Mat hf ht => ⟨s (0 + 32 * 32), ?_⟩⟩
  obtain ⟨t, rfl⟩ : ∃ t, tries = t + 1 := ⟨tries - 1, by omega⟩
  have hiv : isinvertM32 T = .ok 1 := by rw [C12_isinvertM32, if_pos hu]
  have h1 := lowmc.randbit32_run (fun i => hb i fuel hf) (lowmc.addS lowmc.identM32 b 0 T) 0
  rw [lowmc.addS_cancel, h0] at h1
  unfold lowmc.InvTMatM32
  rw [lowmc.envS_junk, lowmc.LM_bind h1]
  unfold lowmc.whileL
  have h2 : (do pure ((← isinvertM32 T) == 0) : C Bool) = .ok false := by rw [hiv]; rfl
  refine (lowmc.LM_bind (a := T) (st' := s (0 + 32 * 32)) ?_).trans ?_
  · rw [lowmc.LM_lift h2]
    rfl
  · rw [copyM32_eq]
    rfl

/-- C64: `RandbitMatM64` adds the next 4096 random bits to what the matrix held. -/
theorem C64_RandbitMatM64 (fuel : Nat) (b : Nat → Bool) (s : Nat → BitVec 80)
    (hb : ∀ i, getrandbit fuel (s i) = .ok (b i, s (i + 1))) (A : M64) (k : Nat) :
    ∃ R, lowmc.RandbitMatM64 fuel A (s k) = .ok (R, s (k + 64 * 64)) ∧
      (∀ i j, mat64 R i j = mat64 A i j + bitF (b (k + (64 * i + j)))) :=
  ⟨_, lowmc.randbit64_run hb A k, lowmc.addS_mat lowmc.identM64 (by norm_num) lowmc.ident64_hI b k A⟩

theorem lowmc.seq64_mat (b : Nat → Bool) (k : Nat) (T : Nat → M64)
    (hT : ∀ q, T (q + 1) = lowmc.addS lowmc.identM64 b (k + 64 * 64 * q) (T q)) (q : Nat) :
    mat64 (T q) = drawnSum 64 (fun i j => 64 * i + j) b (mat64 (T 0)) k q := by
  induction q with
  | zero => rw [drawnSum_zero]
  | succ q ih =>
    rw [drawnSum_succ, ← ih, hT q]
    funext i j
    show _ = _ + bitF (b (k + 64 * 64 * q + (64 * i.val + j.val)))
    exact lowmc.addS_mat lowmc.identM64 (by norm_num) lowmc.ident64_hI b (k + 64 * 64 * q) (T q) i j

/-- C64: `InvTMatM64` goes through the sums of its stack contents with the blocks of 4096 random bits and
stores the first that is invertible; it goes on for ever when there is none.  `invsM64` then stores
the inverse. -/
theorem C64_InvTMatM64 (env : Env) (fuel tries : Nat) (b : Nat → Bool) (s : Nat → BitVec 80)
    (hb : ∀ i, getrandbit fuel (s i) = .ok (b i, s (i + 1))) (Mat B0 : M64) (k : Nat)
    (P : Nat → Matrix (Fin 64) (Fin 64) (ZMod 2))
    (hP : P = drawnSum 64 (fun i j => 64 * i + j) b (mat64 (env.junkArr 64 64)) k) :
    (∃ m A B, 1 ≤ m ∧ m ≤ tries ∧ (∀ q, 1 ≤ q → q < m → ¬ IsUnit (P q)) ∧
      lowmc.InvTMatM64 env fuel tries Mat (s k) = .ok (A, s (k + 4096 * m)) ∧ mat64 A = P m ∧
      invsM64 A B0 = .ok B ∧ mat64 A * mat64 B = 1 ∧ mat64 B * mat64 A = 1) ∨
    ((∀ q, 1 ≤ q → q ≤ tries → ¬ IsUnit (P q)) ∧
      lowmc.InvTMatM64 env fuel tries Mat (s k) = .error .diverge) := by
  classical
  let T : Nat → M64 := fun q => Nat.rec (env.junkArr 64 64) (fun q A => lowmc.addS lowmc.identM64 b (k + 64 * 64 * q) A) q
  have hT : ∀ q, T (q + 1) = lowmc.addS lowmc.identM64 b (k + 64 * 64 * q) (T q) := fun q => rfl
  have hm : ∀ q, mat64 (T q) = P q := fun q => by rw [hP]; exact lowmc.seq64_mat b k T hT q
  rcases lowmc.draw_run (rand := lowmc.RandbitMatM64 fuel) (c := 64 * 64) (k := k) (T := T) (s := s)
    (cond := fun A => do pure ((← isinvertM64 A) == 0)) (bad := fun A => decide ¬ IsUnit (mat64 A))
    (fun q => by rw [lowmc.randbit64_run hb, Nat.add_assoc, ← Nat.mul_succ])
    (fun A => by
      rw [C12_isinvertM64]
      by_cases hu : IsUnit (mat64 A)
      · rw [if_pos hu, decide_eq_false (not_not_intro hu)]; rfl
      · rw [if_neg hu, decide_eq_true hu]; rfl) copyM64
    copyM64_eq Mat tries with ⟨m, h1, h2, h3, h4, h5⟩ | ⟨h1, h2⟩
  · left
    have hu : IsUnit (mat64 (T m)) := by
      by_contra hcon
      rw [decide_eq_true hcon] at h4
      exact absurd h4 (by simp)
    obtain ⟨B, hB, g1, g2⟩ := C13_invsM64 (T m) B0 hu
    refine ⟨m, T m, B, h1, h2, fun q hq hqm => ?_, h5, hm m, hB, g1, g2⟩
    have := of_decide_eq_true (h3 q hq hqm)
    rwa [hm] at this
  · right
    refine ⟨fun q hq hqt => ?_, h2⟩
    have := of_decide_eq_true (h1 q hq hqt)
    rwa [hm] at this

/-- C64: the result depends on what happens to be on the stack: every invertible matrix is returned at
the first attempt for some stack contents, whatever the state of the random bits. -/
theorem C64_stack_M64 (T : M64) (hu : IsUnit (mat64 T)) (st : BitVec 80) : ∃ env : Env, ∀ fuel tries Mat,
    80 ≤ fuel → 1 ≤ tries → ∃ st', lowmc.InvTMatM64 env fuel tries Mat st = .ok (T, st') := by
  obtain ⟨b, s, h0, hb, _⟩ := C63_calls st
  refine ⟨lowmc.envS (lowmc.addS lowmc.identM64 b 0 T), fun fuel tries Mat hf ht => ⟨s (0 + 64 * 64), ?_⟩⟩
  obtain ⟨t, rfl⟩ : ∃ t, tries = t + 1 := ⟨tries - 1, by omega⟩
  have hiv : isinvertM64 T = .ok 1 := by rw [C12_isinvertM64, if_pos hu]
  have h1 := lowmc.randbit64_run (fun i => hb i fuel hf) (lowmc.addS lowmc.identM64 b 0 T) 0
  rw [lowmc.addS_cancel, h0] at h1
  unfold lowmc.InvTMatM64
  rw [lowmc.envS_junk, lowmc.LM_bind h1]
  unfold lowmc.whileL
  have h2 : (do pure ((← isinvertM64 T) == 0) : C Bool) = .ok false := by rw [hiv]; rfl
  refine (lowmc.LM_bind (a := T) (st' := s (0 + 64 * 64)) ?_).trans ?_
  · rw [lowmc.LM_lift h2]
    rfl
  · rw [copyM64_eq]
    rfl

/-- C64: `RandbitMatM128` adds the next 16384 random bits to what the matrix held. -/
theorem C64_RandbitMatM128 (fuel : Nat) (b : Nat → Bool) (s : Nat → BitVec 80)
    (hb : ∀ i, getrandbit fuel (s i) = .ok (b i, s (i + 1))) (A : M128) (k : Nat) :
    ∃ R, lowmc.RandbitMatM128 fuel A (s k) = .ok (R, s (k + 128 * 128)) ∧
      (∀ i j, mat128 R i j = mat128 A i j + bitF (b (k + (128 * i + (2 * (j.val % 64) + j.val / 64))))) :=
  ⟨_, lowmc.randbit128_run hb A k, lowmc.addW_mat (by norm_num) b k A⟩

theorem lowmc.seq128_mat (b : Nat → Bool) (k : Nat) (T : Nat → M128)
    (hT : ∀ q, T (q + 1) = lowmc.addW b (k + 128 * 128 * q) (T q)) (q : Nat) :
    mat128 (T q) = drawnSum 128 (fun i j => 128 * i + (2 * (j % 64) + j / 64)) b (mat128 (T 0)) k q := by
  induction q with
  | zero => rw [drawnSum_zero]
  | succ q ih =>
    rw [drawnSum_succ, ← ih, hT q]
    funext i j
    show _ = _ + bitF (b (k + 128 * 128 * q + (128 * i.val + (2 * (j.val % 64) + j.val / 64))))
    exact lowmc.addW_mat (by norm_num) b (k + 128 * 128 * q) (T q) i j

/-- C64: `InvTMatM128` goes through the sums of its stack contents with the blocks of 16384 random bits and
stores the first that is invertible; it goes on for ever when there is none.  `invsM128` then stores
the inverse. -/
theorem C64_InvTMatM128 (env : Env) (fuel tries : Nat) (b : Nat → Bool) (s : Nat → BitVec 80)
    (hb : ∀ i, getrandbit fuel (s i) = .ok (b i, s (i + 1))) (Mat B0 : M128) (k : Nat)
    (P : Nat → Matrix (Fin 128) (Fin 128) (ZMod 2))
    (hP : P = drawnSum 128 (fun i j => 128 * i + (2 * (j % 64) + j / 64)) b (mat128 (env.junkArr2 64 2 128)) k) :
    (∃ m A B, 1 ≤ m ∧ m ≤ tries ∧ (∀ q, 1 ≤ q → q < m → ¬ IsUnit (P q)) ∧
      lowmc.InvTMatM128 env fuel tries Mat (s k) = .ok (A, s (k + 16384 * m)) ∧ mat128 A = P m ∧
      invsM128 A B0 = .ok B ∧ mat128 A * mat128 B = 1 ∧ mat128 B * mat128 A = 1) ∨
    ((∀ q, 1 ≤ q → q ≤ tries → ¬ IsUnit (P q)) ∧
      lowmc.InvTMatM128 env fuel tries Mat (s k) = .error .diverge) := by
  classical
  let T : Nat → M128 := fun q => Nat.rec (env.junkArr2 64 2 128) (fun q A => lowmc.addW b (k + 128 * 128 * q) A) q
  have hT : ∀ q, T (q + 1) = lowmc.addW b (k + 128 * 128 * q) (T q) := fun q => rfl
  have hm : ∀ q, mat128 (T q) = P q := fun q => by rw [hP]; exact lowmc.seq128_mat b k T hT q
  rcases lowmc.draw_run (rand := lowmc.RandbitMatM128 fuel) (c := 128 * 128) (k := k) (T := T) (s := s)
    (cond := fun A => do pure ((← isinvertM128 A) == 0)) (bad := fun A => decide ¬ IsUnit (mat128 A))
    (fun q => by rw [lowmc.randbit128_run hb, Nat.add_assoc, ← Nat.mul_succ])
    (fun A => by
      rw [C12_isinvertM128]
      by_cases hu : IsUnit (mat128 A)
      · rw [if_pos hu, decide_eq_false (not_not_intro hu)]; rfl
      · rw [if_neg hu, decide_eq_true hu]; rfl) copyM128
    copyM128_eq Mat tries with ⟨m, h1, h2, h3, h4, h5⟩ | ⟨h1, h2⟩
  · left
    have hu : IsUnit (mat128 (T m)) := by
      by_contra hcon
      rw [decide_eq_true hcon] at h4
      exact absurd h4 (by simp)
    obtain ⟨B, hB, g1, g2⟩ := C13_invsM128 (T m) B0 hu
    refine ⟨m, T m, B, h1, h2, fun q hq hqm => ?_, h5, hm m, hB, g1, g2⟩
    have := of_decide_eq_true (h3 q hq hqm)
    rwa [hm] at this
  · right
    refine ⟨fun q hq hqt => ?_, h2⟩
    have := of_decide_eq_true (h1 q hq hqt)
    rwa [hm] at this

/-- C64: the result depends on what happens to be on the stack: every invertible matrix is returned at
the first attempt for some stack contents, whatever the state of the random bits. -/
theorem C64_stack_M128 (T : M128) (hu : IsUnit (mat128 T)) (st : BitVec 80) : ∃ env : Env, ∀ fuel tries Mat,
    80 ≤ fuel → 1 ≤ tries → ∃ st', lowmc.InvTMatM128 env fuel tries Mat st = .ok (T, st') := by
  obtain ⟨b, s, h0, hb, _⟩ := C63_calls st
  refine ⟨lowmc.envW (lowmc.addW b 0 T), fun fuel tries Mat hf ht => ⟨s (0 + 128 * 128), ?_⟩⟩
  obtain ⟨t, rfl⟩ : ∃ t, tries = t + 1 := ⟨tries - 1, by omega⟩
  have hiv : isinvertM128 T = .ok 1 := by rw [C12_isinvertM128, if_pos hu]
  have h1 := lowmc.randbit128_run (fun i => hb i fuel hf) (lowmc.addW b 0 T) 0
  rw [lowmc.addW_cancel, h0] at h1
  unfold lowmc.InvTMatM128
  rw [lowmc.envW_junk, lowmc.LM_bind h1]
  unfold lowmc.whileL
  have h2 : (do pure ((← isinvertM128 T) == 0) : C Bool) = .ok false := by rw [hiv]; rfl
  refine (lowmc.LM_bind (a := T) (st' := s (0 + 128 * 128)) ?_).trans ?_
  · rw [lowmc.LM_lift h2]
    rfl
  · rw [copyM128_eq]
    rfl

/-- C64: `RandbitMatM256` adds the next 65536 random bits to what the matrix held. -/
theorem C64_RandbitMatM256 (fuel : Nat) (b : Nat → Bool) (s : Nat → BitVec 80)
    (hb : ∀ i, getrandbit fuel (s i) = .ok (b i, s (i + 1))) (A : M256) (k : Nat) :
    ∃ R, lowmc.RandbitMatM256 fuel A (s k) = .ok (R, s (k + 256 * 256)) ∧
      (∀ i j, mat256 R i j = mat256 A i j + bitF (b (k + (256 * i + (4 * (j.val % 64) + j.val / 64))))) :=
  ⟨_, lowmc.randbit256_run hb A k, lowmc.addW_mat (by norm_num) b k A⟩

theorem lowmc.seq256_mat (b : Nat → Bool) (k : Nat) (T : Nat → M256)
    (hT : ∀ q, T (q + 1) = lowmc.addW b (k + 256 * 256 * q) (T q)) (q : Nat) :
    mat256 (T q) = drawnSum 256 (fun i j => 256 * i + (4 * (j % 64) + j / 64)) b (mat256 (T 0)) k q := by
  induction q with
  | zero => rw [drawnSum_zero]
  | succ q ih =>
    rw [drawnSum_succ, ← ih, hT q]
    funext i j
    show _ = _ + bitF (b (k + 256 * 256 * q + (256 * i.val + (4 * (j.val % 64) + j.val / 64))))
    exact lowmc.addW_mat (by norm_num) b (k + 256 * 256 * q) (T q) i j

/-- C64: `InvTMatM256` goes through the sums of its stack contents with the blocks of 65536 random bits and
stores the first that is invertible; it goes on for ever when there is none.  `invsM256` then stores
the inverse. -/
theorem C64_InvTMatM256 (env : Env) (fuel tries : Nat) (b : Nat → Bool) (s : Nat → BitVec 80)
    (hb : ∀ i, getrandbit fuel (s i) = .ok (b i, s (i + 1))) (Mat B0 : M256) (k : Nat)
    (P : Nat → Matrix (Fin 256) (Fin 256) (ZMod 2))
    (hP : P = drawnSum 256 (fun i j => 256 * i + (4 * (j % 64) + j / 64)) b (mat256 (env.junkArr2 64 4 256)) k) :
    (∃ m A B, 1 ≤ m ∧ m ≤ tries ∧ (∀ q, 1 ≤ q → q < m → ¬ IsUnit (P q)) ∧
      lowmc.InvTMatM256 env fuel tries Mat (s k) = .ok (A, s (k + 65536 * m)) ∧ mat256 A = P m ∧
      invsM256 A B0 = .ok B ∧ mat256 A * mat256 B = 1 ∧ mat256 B * mat256 A = 1) ∨
    ((∀ q, 1 ≤ q → q ≤ tries → ¬ IsUnit (P q)) ∧
      lowmc.InvTMatM256 env fuel tries Mat (s k) = .error .diverge) := by
  classical
  let T : Nat → M256 := fun q => Nat.rec (env.junkArr2 64 4 256) (fun q A => lowmc.addW b (k + 256 * 256 * q) A) q
  have hT : ∀ q, T (q + 1) = lowmc.addW b (k + 256 * 256 * q) (T q) := fun q => rfl
  have hm : ∀ q, mat256 (T q) = P q := fun q => by rw [hP]; exact lowmc.seq256_mat b k T hT q
  rcases lowmc.draw_run (rand := lowmc.RandbitMatM256 fuel) (c := 256 * 256) (k := k) (T := T) (s := s)
    (cond := fun A => do pure ((← isinvertM256 A) == 0)) (bad := fun A => decide ¬ IsUnit (mat256 A))
    (fun q => by rw [lowmc.randbit256_run hb, Nat.add_assoc, ← Nat.mul_succ])
    (fun A => by
      rw [C12_isinvertM256]
      by_cases hu : IsUnit (mat256 A)
      · rw [if_pos hu, decide_eq_false (not_not_intro hu)]; rfl
      · rw [if_neg hu, decide_eq_true hu]; rfl) copyM256
    copyM256_eq Mat tries with ⟨m, h1, h2, h3, h4, h5⟩ | ⟨h1, h2⟩
  · left
    have hu : IsUnit (mat256 (T m)) := by
      by_contra hcon
      rw [decide_eq_true hcon] at h4
      exact absurd h4 (by simp)
    obtain ⟨B, hB, g1, g2⟩ := C13_invsM256 (T m) B0 hu
    refine ⟨m, T m, B, h1, h2, fun q hq hqm => ?_, h5, hm m, hB, g1, g2⟩
    have := of_decide_eq_true (h3 q hq hqm)
    rwa [hm] at this
  · right
    refine ⟨fun q hq hqt => ?_, h2⟩
    have := of_decide_eq_true (h1 q hq hqt)
    rwa [hm] at this

/-- C64: the result depends on what happens to be on the stack: every invertible matrix is returned at
the first attempt for some stack contents, whatever the state of the random bits. -/
theorem C64_stack_M256 (T : M256) (hu : IsUnit (mat256 T)) (st : BitVec 80) : ∃ env : Env, ∀ fuel tries Mat,
    80 ≤ fuel → 1 ≤ tries → ∃ st', lowmc.InvTMatM256 env fuel tries Mat st = .ok (T, st') := by
  obtain ⟨b, s, h0, hb, _⟩ := C63_calls st
  refine ⟨lowmc.envW (lowmc.addW b 0 T), fun fuel tries Mat hf ht => ⟨s (0 + 256 * 256), ?_⟩⟩
  obtain ⟨t, rfl⟩ : ∃ t, tries = t + 1 := ⟨tries - 1, by omega⟩
  have hiv : isinvertM256 T = .ok 1 := by rw [C12_isinvertM256, if_pos hu]
  have h1 := lowmc.randbit256_run (fun i => hb i fuel hf) (lowmc.addW b 0 T) 0
  rw [lowmc.addW_cancel, h0] at h1
  unfold lowmc.InvTMatM256
  rw [lowmc.envW_junk, lowmc.LM_bind h1]
  unfold lowmc.whileL
  have h2 : (do pure ((← isinvertM256 T) == 0) : C Bool) = .ok false := by rw [hiv]; rfl
  refine (lowmc.LM_bind (a := T) (st' := s (0 + 256 * 256)) ?_).trans ?_
  · rw [lowmc.LM_lift h2]
    rfl
  · rw [copyM256_eq]
    rfl

/-- With zeros on the stack the program's first 4x4 matrix is found at the second attempt. -/
example : (lowmc.InvTMatM4 ⟨.little, fun _ _ => 0⟩ 80 2 #v[0, 0, 0, 0] 0).map (·.1) = .ok #v[2, 3, 15, 7] := by
  decide +kernel

example : (lowmc.InvTMatM4 ⟨.little, fun _ _ => 0⟩ 80 1 #v[0, 0, 0, 0] 0).map (·.1) = .error .diverge := by
  decide +kernel

end WB
