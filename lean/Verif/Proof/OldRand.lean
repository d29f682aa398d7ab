import Verif.Proof.OldEq
import Verif.Proof.RelAll

/-!
# The random vectors of the older library (helper lemmas)
-/
namespace WB
open Matrix

/-- A 32-bit word made of two 16-bit parts, the first one in cell 1. -/
def pair32 (env : Env) (a b : BitVec 16) : BitVec 32 := stRes env (stRes env (0 : BitVec 32) 1 a) 0 b

/-- A 64-bit word made of four 16-bit parts, the first one in cell 3. -/
def quad64 (env : Env) (a b c d : BitVec 16) : BitVec 64 :=
  stRes env (stRes env (stRes env (stRes env (0 : BitVec 64) 3 a) 2 b) 1 c) 0 d

theorem pair32_eq (env : Env) (x : BitVec 32) (a b : BitVec 16) :
    stRes env (stRes env x 1 a) 0 b = pair32 env a b := by
  unfold pair32
  apply BitVec.eq_of_getLsbD_eq
  intro i hi
  simp only [stRes_bit _ _ _ _ _ hi (show 16 ≤ 32 by norm_num)]
  unfold Env.cellOff
  cases env.endian <;> simp only
  · by_cases h0 : 0 * 16 ≤ i ∧ i < 0 * 16 + 16
    · rw [if_pos h0, if_pos h0]
    · rw [if_neg h0, if_neg h0, if_pos (by omega), if_pos (by omega)]
  · by_cases h0 : 32 - (0 + 1) * 16 ≤ i ∧ i < 32 - (0 + 1) * 16 + 16
    · rw [if_pos h0, if_pos h0]
    · rw [if_neg h0, if_neg h0, if_pos (by omega), if_pos (by omega)]

theorem quad64_eq (env : Env) (x : BitVec 64) (a b c d : BitVec 16) :
    stRes env (stRes env (stRes env (stRes env x 3 a) 2 b) 1 c) 0 d = quad64 env a b c d := by
  unfold quad64
  apply BitVec.eq_of_getLsbD_eq
  intro i hi
  simp only [stRes_bit _ _ _ _ _ hi (show 16 ≤ 64 by norm_num)]
  by_cases h0 : env.cellOff 64 16 0 ≤ i ∧ i < env.cellOff 64 16 0 + 16
  · rw [if_pos h0, if_pos h0]
  rw [if_neg h0, if_neg h0]
  by_cases h1 : env.cellOff 64 16 1 ≤ i ∧ i < env.cellOff 64 16 1 + 16
  · rw [if_pos h1, if_pos h1]
  rw [if_neg h1, if_neg h1]
  by_cases h2 : env.cellOff 64 16 2 ≤ i ∧ i < env.cellOff 64 16 2 + 16
  · rw [if_pos h2, if_pos h2]
  rw [if_neg h2, if_neg h2]
  have h3 : env.cellOff 64 16 3 ≤ i ∧ i < env.cellOff 64 16 3 + 16 := by
    unfold Env.cellOff at *
    cases h : env.endian <;> simp only [h] at h0 h1 h2 ⊢ <;> omega
  rw [if_pos h3, if_pos h3]

theorem pair32_congr {env env' : Env} (he : env.endian = env'.endian) (a b : BitVec 16) :
    pair32 env a b = pair32 env' a b := by
  unfold pair32 stRes Env.cellOff
  rw [he]

theorem quad64_congr {env env' : Env} (he : env.endian = env'.endian) (a b c d : BitVec 16) :
    quad64 env a b c d = quad64 env' a b c d := by
  unfold quad64 stRes Env.cellOff
  rw [he]

/-- Low half of the `k`-th number drawn from now on. -/
def World.half (w : World) (k : Nat) : BitVec 16 := (w.draw k).setWidth 16

theorem half_adv (w : World) (a k : Nat) : (w.adv a).half k = w.half (a + k) := by
  unfold World.half
  rw [draw_adv]

theorem cell16 {W k : Nat} {γ : Type} (env : Env) (x : BitVec W) (h : (k + 1) * 16 ≤ W) (F : BitVec W → CM γ) (w : World) :
    (do let r ← cus_random
        let x ← liftC (env.stSub x k (r.setWidth 16))
        F x : CM γ) w = F (stRes env x k (w.half 0)) (w.adv 1) := by
  rw [CM_bind_run (cus_random_run' w), CM_bind_run (liftC_run _ (stSub_res _ _ _ _ h))]
  rfl

theorem cell16' {W k : Nat} (env : Env) (x : BitVec W) (h : (k + 1) * 16 ≤ W) (w : World) :
    (do let r ← cus_random
        liftC (env.stSub x k (r.setWidth 16)) : CM _) w = .ok (stRes env x k (w.half 0), w.adv 1) := by
  rw [CM_bind_run (cus_random_run' w), liftC_run _ (stSub_res _ _ _ _ h)]
  rfl

theorem cellV16 {l q k : Nat} {γ : Type} (env : Env) (hq : q < l) (x : Vector (BitVec 64) l) (h : (k + 1) * 16 ≤ 64)
    (F : Vector (BitVec 64) l → CM γ) (w : World) :
    (do let r ← cus_random
        let x ← liftC do wr x q (← env.stSub (← rd x q) k (r.setWidth 16))
        F x : CM γ) w = F (x.set q (stRes env x[q] k (w.half 0))) (w.adv 1) := by
  rw [CM_bind_run (cus_random_run' w), CM_bind_run (liftC_run _ (by
    rw [rd_ok _ _ hq, C_pure_bind, stSub_res _ _ _ _ h, C_pure_bind, wr_ok _ _ _ hq]))]
  rfl

theorem old_randV32_run (env : Env) (V : V32) (w : World) : old.randV32 env V w =
    .ok (pair32 env (w.seeded.half 0) (w.seeded.half 1), w.seeded.adv 2) := by
  unfold old.randV32
  rw [CM_bind_run (reseed_run' w), cell16 env V (by norm_num), cell16' env _ (by norm_num), half_adv, adv_adv, pair32_eq]

theorem old_randV64_run (env : Env) (V : V64) (w : World) : old.randV64 env V w =
    .ok (quad64 env (w.seeded.half 0) (w.seeded.half 1) (w.seeded.half 2) (w.seeded.half 3), w.seeded.adv 4) := by
  unfold old.randV64
  rw [CM_bind_run (reseed_run' w), cell16 env V (by norm_num), cell16 env _ (by norm_num), cell16 env _ (by norm_num),
    cell16' env _ (by norm_num)]
  simp only [half_adv, adv_adv, quad64_eq]

theorem old_randV128_run (env : Env) (V : V128) (w : World) : old.randV128 env V w =
    .ok (#v[quad64 env (w.seeded.half 0) (w.seeded.half 1) (w.seeded.half 2) (w.seeded.half 3),
      quad64 env (w.seeded.half 4) (w.seeded.half 5) (w.seeded.half 6) (w.seeded.half 7)], w.seeded.adv 8) := by
  unfold old.randV128
  rw [CM_bind_run (reseed_run' w), cellV16 env (by omega) V (by norm_num), cellV16 env (by omega) _ (by norm_num),
    cellV16 env (by omega) _ (by norm_num), cellV16 env (by omega) _ (by norm_num), cellV16 env (by omega) _ (by norm_num),
    cellV16 env (by omega) _ (by norm_num), cellV16 env (by omega) _ (by norm_num), CM_bind_run (cus_random_run' _),
    liftC_run _ (by
      rw [rd_ok _ _ (by omega : 1 < 2), C_pure_bind, stSub_res _ _ _ _ (by norm_num), C_pure_bind, wr_ok _ _ _ (by omega : 1 < 2)])]
  simp only [adv_adv, half_adv, draw_adv]
  refine congrArg (fun x => Except.ok (x, _)) ?_
  have v2 : ∀ (x : V128) (a b : BitVec 64), x[0] = a → x[1] = b → x = #v[a, b] := by
    intro x a b h0 h1
    apply Vector.ext
    intro i hi
    have : i = 0 ∨ i = 1 := by omega
    rcases this with rfl | rfl
    · exact h0
    · exact h1
  apply v2
  · simp only [Vector.getElem_set, if_true, Nat.one_ne_zero, if_false, quad64_eq]
  · simp only [Vector.getElem_set, if_true, Nat.zero_ne_one, if_false]
    exact quad64_eq env _ _ _ _ _

theorem half_congr {w w' : World} (h : GenEq w w') (k : Nat) : w.half k = w'.half k := by
  unfold World.half
  rw [draw_congr h]

end WB
