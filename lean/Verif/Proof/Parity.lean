import Verif.Proof.RowOps
import Verif.Proof.Rows
import Verif.Model.Com
import Verif.Model.M256
import Verif.Model.M4
import Mathlib.Algebra.BigOperators.Fin
import Mathlib.Algebra.BigOperators.Intervals

/-!
# Parity and Hamming weight (helper lemmas)
-/
namespace WB
open Finset

theorem weight_split {w W : Nat} (h : W = w + w) (x : BitVec W) :
    weight x = weight (x.extractLsb' 0 w) + weight (x.extractLsb' w w) := by
  subst h
  unfold weight
  rw [Finset.sum_range_add]
  refine congrArg₂ _ (Finset.sum_congr rfl ?_) (Finset.sum_congr rfl ?_)
  · intro i hi
    rw [Finset.mem_range] at hi
    simp [hi]
  · intro i hi
    rw [Finset.mem_range] at hi
    simp [hi]

theorem toNat_xor_mod (a b : Bool) : (a ^^ b).toNat % 2 = (a.toNat + b.toNat) % 2 := by
  cases a <;> cases b <;> rfl

theorem weight_xor {w : Nat} (x y : BitVec w) :
    weight (x ^^^ y) % 2 = (weight x + weight y) % 2 := by
  unfold weight
  rw [← Finset.sum_add_distrib, Finset.sum_nat_mod, Finset.sum_nat_mod _ _ (fun _ => _ + _)]
  refine congrArg (· % 2) (Finset.sum_congr rfl ?_)
  intro i _
  rw [BitVec.getLsbD_xor, toNat_xor_mod]

theorem ldSub_eq (env : Env) {W w k : Nat} (x : BitVec W) (h : (k + 1) * w ≤ W) :
    env.ldSub x w k = .ok (x.extractLsb' (env.cellOff W w k) w) := by
  unfold Env.ldSub; rw [if_pos h]

theorem half_sum (env : Env) {W w : Nat} (h : W = w + w) (x : BitVec W)
    (f : BitVec w → Nat) :
    f (x.extractLsb' (env.cellOff W w 0) w) + f (x.extractLsb' (env.cellOff W w 1) w) =
      f (x.extractLsb' 0 w) + f (x.extractLsb' w w) := by
  subst h
  unfold Env.cellOff
  cases env.endian with
  | little => simp
  | big =>
    simp only [Nat.zero_add, Nat.one_mul]
    rw [Nat.add_comm, show w + w - w = w by omega, show w + w - (1 + 1) * w = 0 by omega]

/-- The table `xor[]` holds the parity of every byte. -/
theorem xorTab_spec : ∀ i : Fin 256, xorTab[i] = ((weight (BitVec.ofFin (w := 8) i) % 2 : Nat) : Int) := by
  decide +kernel

/-- The table `HW[]` holds the weight of every byte. -/
theorem hwTab_spec : ∀ i : Fin 256, hwTab[i] = ((weight (BitVec.ofFin (w := 8) i) : Nat) : Int) := by
  decide +kernel

theorem par_ite (n : Nat) :
    (if ((n % 2 : Nat) : Int) != 0 then (1 : Int) else 0) = ((n % 2 : Nat) : Int) := by
  rcases Nat.mod_two_eq_zero_or_one n with h | h <;> rw [h] <;> rfl

theorem C_ite_pure {α : Type} (b : Bool) (x y : α) :
    (if b = true then pure x else pure y : C α) = .ok (if b = true then x else y) := by
  cases b <;> rfl

theorem xorU8_eq (env : Env) (x : BitVec 8) : xorU8 env x = .ok ((weight x % 2 : Nat) : Int) := by
  unfold xorU8
  rw [rd_ok _ _ x.isLt, C_pure_bind, C_ite_pure]
  have : xorTab[x.toNat] = ((weight x % 2 : Nat) : Int) := xorTab_spec x.toFin
  rw [this, par_ite]

theorem xorU4_eq (env : Env) (x : BitVec 8) : xorU4 env x = .ok ((weight x % 2 : Nat) : Int) :=
  xorU8_eq env x

theorem HWU8_eq (env : Env) (x : BitVec 8) : HWU8 env x = .ok (weight x : Int) := by
  unfold HWU8
  rw [rd_ok _ _ x.isLt]
  exact congrArg Except.ok (hwTab_spec x.toFin)

theorem HWU4_eq (env : Env) (x : BitVec 8) : HWU4 env x = .ok (weight x : Int) :=
  HWU8_eq env x

theorem xor_step (env : Env) {W w : Nat} (h : W = w + w) (x : BitVec W)
    (f : BitVec w → C Int) (hf : ∀ y, f y = .ok ((weight y % 2 : Nat) : Int)) :
    (do
      let temp := (← env.ldSub x w 0) ^^^ (← env.ldSub x w 1)
      if (← f temp) != 0 then pure 1 else pure 0 : C Int) = .ok ((weight x % 2 : Nat) : Int) := by
  rw [ldSub_eq env x (by omega), ldSub_eq env x (by omega)]
  simp only [C_pure_bind]
  rw [hf, C_pure_bind, C_ite_pure, par_ite, weight_xor, half_sum env h x weight, ← weight_split h]

theorem xorU16_eq (env : Env) (x : BitVec 16) : xorU16 env x = .ok ((weight x % 2 : Nat) : Int) := by
  rw [← xor_step env (w := 8) rfl x (xorU8 env) (xorU8_eq env)]; rfl
theorem xorU32_eq (env : Env) (x : BitVec 32) : xorU32 env x = .ok ((weight x % 2 : Nat) : Int) := by
  rw [← xor_step env (w := 16) rfl x (xorU16 env) (xorU16_eq env)]; rfl
theorem xorU64_eq (env : Env) (x : BitVec 64) : xorU64 env x = .ok ((weight x % 2 : Nat) : Int) := by
  rw [← xor_step env (w := 32) rfl x (xorU32 env) (xorU32_eq env)]; rfl

theorem hw_step (env : Env) {W w : Nat} (h : W = w + w) (x : BitVec W)
    (f : BitVec w → C Int) (hf : ∀ y, f y = .ok (weight y : Int)) :
    (do pure ((← f (← env.ldSub x w 0)) + (← f (← env.ldSub x w 1))) : C Int) =
      .ok (weight x : Int) := by
  rw [ldSub_eq env x (by omega), ldSub_eq env x (by omega)]
  simp only [C_pure_bind, hf]
  rw [weight_split h, ← half_sum env h x weight]
  rfl

theorem HWU16_eq (env : Env) (x : BitVec 16) : HWU16 env x = .ok (weight x : Int) := by
  rw [← hw_step env (w := 8) rfl x (HWU8 env) (HWU8_eq env)]; rfl
theorem HWU32_eq (env : Env) (x : BitVec 32) : HWU32 env x = .ok (weight x : Int) := by
  rw [← hw_step env (w := 16) rfl x (HWU16 env) (HWU16_eq env)]; rfl
theorem HWU64_eq (env : Env) (x : BitVec 64) : HWU64 env x = .ok (weight x : Int) := by
  rw [← hw_step env (w := 32) rfl x (HWU32 env) (HWU32_eq env)]; rfl

theorem HWU128_eq (env : Env) (x : Vector (BitVec 64) 2) :
    HWU128 env x = .ok (weightV x : Int) := by
  unfold HWU128 weightV
  rw [rd_ok _ _ (by omega : 0 < 2), rd_ok _ _ (by omega : 1 < 2)]
  simp only [C_pure_bind, HWU64_eq, Fin.sum_univ_two]
  rfl

theorem xorU128_eq (env : Env) (x : Vector (BitVec 64) 2) :
    xorU128 env x = .ok ((weightV x % 2 : Nat) : Int) := by
  unfold xorU128 weightV
  rw [rd_ok _ _ (by omega : 0 < 2), rd_ok _ _ (by omega : 1 < 2)]
  simp only [C_pure_bind, xorU64_eq, Fin.sum_univ_two]
  rw [C_ite_pure, par_ite, weight_xor]
  rfl

theorem xorU256_eq (env : Env) (x : Vector (BitVec 64) 4) :
    xorU256 env x = .ok ((weightV x % 2 : Nat) : Int) := by
  unfold xorU256 weightV
  rw [rd_ok _ _ (by omega : 0 < 4), rd_ok _ _ (by omega : 1 < 4), rd_ok _ _ (by omega : 2 < 4),
    rd_ok _ _ (by omega : 3 < 4)]
  simp only [C_pure_bind, xorU64_eq, Fin.sum_univ_four]
  rw [C_ite_pure, par_ite, weight_xor, Nat.add_mod, weight_xor, ← Nat.add_mod, Nat.add_assoc,
    Nat.add_mod, weight_xor, ← Nat.add_mod]
  rw [Nat.add_assoc (_ + _)]
  rfl

/-! ## Parity of a masked word = dot product -/

theorem bitF_toNat (b : Bool) : ((b.toNat : Nat) : ZMod 2) = bitF b := by cases b <;> rfl

theorem weight_cast {w : Nat} (x : BitVec w) :
    ((weight x : Nat) : ZMod 2) = ∑ i ∈ range w, bitF (x.getLsbD i) := by
  unfold weight
  rw [Nat.cast_sum]
  exact Finset.sum_congr rfl fun i _ => bitF_toNat _

/-- Dot product of two rows stored in one word. -/
theorem dotS {n w : Nat} (hw : n ≤ w) (x y : BitVec w)
    (hz : ∀ k, n ≤ k → (x &&& y).getLsbD k = false) :
    ((weight (x &&& y) : Nat) : ZMod 2) = ∑ j : Fin n, bitF (bitS n x j) * bitF (bitS n y j) := by
  rw [weight_cast, Fin.sum_univ_eq_sum_range (fun j => bitF (bitS n x j) * bitF (bitS n y j)) n,
    ← Finset.sum_range_reflect (fun j => bitF (bitS n x j) * bitF (bitS n y j))]
  rw [← Finset.sum_subset (Finset.range_subset_range.2 hw)]
  · refine Finset.sum_congr rfl ?_
    intro j hj
    rw [Finset.mem_range] at hj
    rw [← bitF_and, BitVec.getLsbD_and]
    unfold bitS
    rw [show n - 1 - (n - 1 - j) = j by omega]
  · intro k _ hk
    rw [Finset.mem_range] at hk
    rw [hz k (by omega)]; rfl

theorem par_ne_zero (n : Nat) : ((n % 2 : Nat) : Int) != 0 ↔ ((n : Nat) : ZMod 2) = 1 := by
  rw [show ((n : Nat) : ZMod 2) = ((n % 2 : Nat) : ZMod 2) by simp]
  rcases Nat.mod_two_eq_zero_or_one n with h | h <;> rw [h] <;> decide

/-- Dot product of two rows stored in several words. -/
theorem dotW {l : Nat} (x y z : Vector (BitVec 64) l)
    (h : ∀ k (hk : k < l), z[k] = x[k] &&& y[k]) :
    ((weightV z : Nat) : ZMod 2) = ∑ j : Fin (64 * l), bitF (bitW x j) * bitF (bitW y j) := by
  unfold weightV
  rw [Nat.cast_sum]
  have key : ∀ k : Fin l, ((weight z[k] : Nat) : ZMod 2) =
      ∑ c : Fin 64, bitF (bitW x (c + 64 * k.val)) * bitF (bitW y (c + 64 * k.val)) := by
    intro k
    have hz : z[k] = x[k.val] &&& y[k.val] := h k.val k.2
    rw [hz, dotS (Nat.le_refl 64) _ _ (fun k hk => BitVec.getLsbD_of_ge _ _ hk)]
    refine Finset.sum_congr rfl ?_
    intro c _
    have e1 : (c.val + 64 * k.val) / 64 = k.val := by omega
    have e2 : (c.val + 64 * k.val) % 64 = c.val := by omega
    rw [bitW_eq _ _ (by omega), bitW_eq _ _ (by omega)]
    simp only [e1, e2]
    rfl
  rw [Finset.sum_congr rfl (fun k _ => key k), ← Finset.sum_product']
  rw [← Equiv.sum_comp (finProdFinEquiv.trans (finCongr (Nat.mul_comm l 64)))
    (fun j : Fin (64 * l) => bitF (bitW x j) * bitF (bitW y j))]
  rw [Finset.univ_product_univ]
  rfl

end WB
