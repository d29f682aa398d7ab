import Mathlib.RingTheory.AdjoinRoot
import Mathlib.Algebra.CharP.Two
import Mathlib.Algebra.Field.ZMod
import Verif.SpecGF
import Verif.SpecGFPoly

/-!
# The executable field arithmetic of `SpecGF` is polynomial arithmetic (helper lemmas)
-/
namespace WB
open Polynomial

theorem poly_xor (a b : BitVec 8) : poly (a ^^^ b) = poly a + poly b := by
  unfold poly
  rw [← Finset.sum_add_distrib]
  refine Finset.sum_congr rfl fun i _ => ?_
  rw [BitVec.getLsbD_xor]
  cases a.getLsbD i <;> cases b.getLsbD i <;> simp [CharTwo.add_self_eq_zero]

theorem coeff_poly (a : BitVec 8) (n : Nat) : (poly a).coeff n = if a.getLsbD n then 1 else 0 := by
  unfold poly
  rw [finsetSum_coeff]
  by_cases h : n < 8
  · rw [Finset.sum_eq_single (⟨n, h⟩ : Fin 8)]
    · cases c : a.getLsbD n <;> simp [c]
    · intro i _ hi
      have : n ≠ i.val := fun e => hi (Fin.ext e.symm)
      cases a.getLsbD i <;> simp [coeff_X_pow, this]
    · simp
  · rw [BitVec.getLsbD_of_ge _ _ (by omega)]
    refine Finset.sum_eq_zero fun i _ => ?_
    have : n ≠ i.val := by omega
    cases a.getLsbD i <;> simp [coeff_X_pow, this]

theorem poly_injective : Function.Injective poly := by
  intro a b h
  apply BitVec.eq_of_getLsbD_eq
  intro i _
  have := congrArg (fun f => f.coeff i) h
  simp only [coeff_poly] at this
  cases ha : a.getLsbD i <;> cases hb : b.getLsbD i <;> simp [ha, hb] at this ⊢

theorem degree_poly (a : BitVec 8) : (poly a).degree < 8 := by
  have := (degree_lt_iff_coeff_zero (poly a) 8).2 (fun n hn => by
    rw [coeff_poly, BitVec.getLsbD_of_ge _ _ hn]; rfl)
  exact_mod_cast this

/-- The modulus. -/
noncomputable def modulus (p : BitVec 8) : (ZMod 2)[X] := X ^ 8 + poly p

theorem modulus_monic (p : BitVec 8) : (modulus p).Monic :=
  monic_X_pow_add (by exact_mod_cast degree_poly p)

theorem modulus_degree (p : BitVec 8) : (modulus p).degree = 8 := by
  unfold modulus
  rw [degree_add_eq_left_of_degree_lt]
  · simp
  · rw [degree_X_pow]; exact_mod_cast degree_poly p

theorem poly_zero : poly 0 = 0 := by
  ext n; rw [coeff_poly]; simp

theorem poly_ite (c : Bool) (a : BitVec 8) : poly (if c then a else 0) = if c then poly a else 0 := by
  cases c
  · exact poly_zero
  · rfl

theorem poly_shl (a : BitVec 8) : X * poly a = poly (a <<< 1) + if a.msb then X ^ 8 else 0 := by
  ext n
  rw [coeff_add, coeff_poly, BitVec.getLsbD_shiftLeft, BitVec.msb_eq_getLsbD_last]
  cases n with
  | zero =>
    rw [coeff_X_mul_zero]
    cases a.getLsbD (8 - 1) <;> simp
  | succ n =>
    rw [coeff_X_mul, coeff_poly]
    by_cases h : n < 7
    · have : ¬ n = 7 := by omega
      cases a.getLsbD (8 - 1) <;> simp [show n + 1 < 8 by omega, coeff_X_pow, this]
    · by_cases h7 : n = 7
      · subst h7
        cases c : a.getLsbD 7 <;> simp
      · rw [BitVec.getLsbD_of_ge _ n (by omega)]
        cases a.getLsbD (8 - 1) <;> simp [show ¬ n + 1 < 8 by omega, coeff_X_pow, h7]

theorem mk_gfX (p a : BitVec 8) :
    AdjoinRoot.mk (modulus p) (poly (gfX p a)) = AdjoinRoot.mk (modulus p) (X * poly a) := by
  rw [poly_shl]
  unfold gfX
  cases a.msb
  · simp
  · rw [if_pos rfl, if_pos rfl, AdjoinRoot.mk_eq_mk, poly_xor]
    refine ⟨1, ?_⟩
    unfold modulus
    rw [mul_one, add_sub_add_left_eq_sub, CharTwo.sub_eq_add, add_comm]

theorem mk_horner (p a b : BitVec 8) (f : (ZMod 2)[X]) (acc : BitVec 8) (i : Nat)
    (h : AdjoinRoot.mk (modulus p) (poly acc) = AdjoinRoot.mk (modulus p) (poly a * f)) :
    AdjoinRoot.mk (modulus p) (poly (gfX p acc ^^^ (if b.getLsbD i then a else 0))) =
      AdjoinRoot.mk (modulus p) (poly a * (X * f + if b.getLsbD i then 1 else 0)) := by
  rw [poly_xor, map_add, mk_gfX, map_mul, h, poly_ite, ← map_mul, ← map_add]
  congr 1
  cases b.getLsbD i
  · simp only [Bool.false_eq_true, if_false]; ring
  · simp only [if_true]; ring

theorem mk_fold (p a b : BitVec 8) (l : List Nat) (f : (ZMod 2)[X]) (acc : BitVec 8)
    (h : AdjoinRoot.mk (modulus p) (poly acc) = AdjoinRoot.mk (modulus p) (poly a * f)) :
    AdjoinRoot.mk (modulus p) (poly (l.foldl (fun acc i => gfX p acc ^^^ (if b.getLsbD i then a else 0)) acc)) =
      AdjoinRoot.mk (modulus p) (poly a * l.foldl (fun f i => X * f + if b.getLsbD i then 1 else 0) f) := by
  induction l generalizing f acc with
  | nil => exact h
  | cons i l ih => exact ih _ _ (mk_horner p a b f acc i h)

theorem mk_gfMul (p a b : BitVec 8) :
    AdjoinRoot.mk (modulus p) (poly (gfMul p a b)) = AdjoinRoot.mk (modulus p) (poly a * poly b) := by
  unfold gfMul
  rw [mk_fold p a b _ 0 0 (by rw [poly_zero, mul_zero])]
  simp only [List.foldl_cons, List.foldl_nil]
  congr 2
  obtain ⟨c, hc⟩ : ∃ c : Nat → (ZMod 2)[X], ∀ i, (if b.getLsbD i then 1 else 0) = c i := ⟨_, fun _ => rfl⟩
  have hb : poly b = ∑ i : Fin 8, X ^ i.val * c i := by
    unfold poly
    refine Finset.sum_congr rfl fun i _ => ?_
    rw [← hc]
    cases b.getLsbD i <;> simp
  rw [hb, Fin.sum_univ_eight]
  simp only [hc]
  change _ = X ^ 0 * c 0 + X ^ 1 * c 1 + X ^ 2 * c 2 + X ^ 3 * c 3 + X ^ 4 * c 4 + X ^ 5 * c 5 + X ^ 6 * c 6 + X ^ 7 * c 7
  ring

/-- `gfMul` multiplies the polynomials and reduces the product. -/
theorem poly_gfMul (p a b : BitVec 8) : poly (gfMul p a b) = (poly a * poly b) %ₘ (X ^ 8 + poly p) := by
  have h := mk_gfMul p a b
  rw [AdjoinRoot.mk_eq_mk] at h
  obtain ⟨q, hq⟩ := h
  refine ((div_modByMonic_unique (-q) (poly (gfMul p a b)) (modulus_monic p) ⟨?_, ?_⟩).2).symm
  · rw [mul_neg, ← hq]; ring
  · rw [modulus_degree]; exact degree_poly _

end WB
