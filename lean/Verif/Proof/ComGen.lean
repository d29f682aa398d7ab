import Verif.Proof.Affine
import Verif.Proof.Inj
import Mathlib.Logic.Equiv.Fin.Basic
import Mathlib.Tactic.FinCases

/-!
# Concatenation: generic helper lemmas
-/
namespace WB
open Matrix

/-- Result of a sub-word store. -/
def stRes (env : Env) {W w : Nat} (x : BitVec W) (k : Nat) (v : BitVec w) : BitVec W :=
  (x &&& ~~~((BitVec.allOnes w).setWidth W <<< env.cellOff W w k)) |||
    (v.setWidth W <<< env.cellOff W w k)

theorem stSub_res (env : Env) {W w : Nat} (x : BitVec W) (k : Nat) (v : BitVec w)
    (h : (k + 1) * w ≤ W) : env.stSub x k v = .ok (stRes env x k v) := by
  unfold Env.stSub stRes
  rw [if_pos h]

theorem stRes_bit (env : Env) {W w : Nat} (x : BitVec W) (k : Nat) (v : BitVec w) (i : Nat)
    (hi : i < W) (hw : w ≤ W) :
    (stRes env x k v).getLsbD i =
      if env.cellOff W w k ≤ i ∧ i < env.cellOff W w k + w then v.getLsbD (i - env.cellOff W w k)
      else x.getLsbD i := by
  unfold stRes
  generalize env.cellOff W w k = off
  simp only [BitVec.getLsbD_or, BitVec.getLsbD_and, BitVec.getLsbD_not, BitVec.getLsbD_shiftLeft,
    BitVec.getLsbD_setWidth, BitVec.getLsbD_allOnes]
  by_cases h1 : off ≤ i
  · by_cases h2 : i < off + w
    · have a1 : ¬ i < off := by omega
      have a2 : i - off < w := by omega
      have a3 : i - off < W := by omega
      simp [h1, h2, hi, a1, a2, a3]
    · have a1 : ¬ i < off := by omega
      have a2 : ¬ i - off < w := by omega
      rw [if_neg (by omega)]
      simp [hi, a1, a2, BitVec.getLsbD_of_ge v (i - off) (by omega)]
  · have a1 : i < off := by omega
    rw [if_neg (by omega)]
    simp [hi, a1]

/-- Column block in which block `b` is stored; `κ` cells per word. -/
def Env.pos (env : Env) (κ b : Nat) : Nat :=
  match env.endian with
  | .little => b
  | .big => κ * (b / κ) + (κ - 1 - b % κ)

theorem cell_iff (env : Env) {κ a W b c : Nat} (hW : W = κ * a) (ha : 0 < a) (hκ : 0 < κ)
    (hc : c < W) :
    (env.cellOff W a (κ - 1 - b % κ) ≤ W - 1 - c ∧
      W - 1 - c < env.cellOff W a (κ - 1 - b % κ) + a ↔ c / a = env.pos κ b % κ) ∧
    (c / a = env.pos κ b % κ → W - 1 - c - env.cellOff W a (κ - 1 - b % κ) = a - 1 - c % a) := by
  have hb : b % κ < κ := Nat.mod_lt _ hκ
  obtain ⟨q, t, rfl, ht⟩ : ∃ q t, c = q * a + t ∧ t < a :=
    ⟨c / a, c % a, by rw [Nat.mul_comm]; exact (Nat.div_add_mod c a).symm, Nat.mod_lt _ ha⟩
  have hdiv : (q * a + t) / a = q := by
    rw [Nat.mul_comm, Nat.mul_add_div ha, Nat.div_eq_of_lt ht, Nat.add_zero]
  have hmod : (q * a + t) % a = t := by
    rw [Nat.mul_comm, Nat.mul_add_mod, Nat.mod_eq_of_lt ht]
  have hq : q < κ := by
    by_contra h
    have : κ * a ≤ q * a := Nat.mul_le_mul_right a (by omega)
    omega
  rw [hdiv, hmod]
  -- W - 1 - c = (κ-1-q)*a + (a-1-t)
  have hWc : W - 1 - (q * a + t) = (κ - 1 - q) * a + (a - 1 - t) := by
    obtain ⟨d, rfl⟩ : ∃ d, κ = q + 1 + d := ⟨κ - q - 1, by omega⟩
    rw [hW, show q + 1 + d - 1 - q = d by omega, show (q + 1 + d) * a = q * a + a + d * a by ring]
    omega
  rw [hWc]
  have key : ∀ p, p < κ → ((p * a ≤ (κ - 1 - q) * a + (a - 1 - t) ∧
      (κ - 1 - q) * a + (a - 1 - t) < p * a + a) ↔ κ - 1 - q = p) := by
    intro p hp
    constructor
    · rintro ⟨h1, h2⟩
      by_contra hne
      rcases Nat.lt_or_gt_of_ne hne with h | h
      · have : (κ - 1 - q + 1) * a ≤ p * a := Nat.mul_le_mul_right a h
        rw [Nat.add_mul] at this; omega
      · have : (p + 1) * a ≤ (κ - 1 - q) * a := Nat.mul_le_mul_right a h
        rw [Nat.add_mul] at this; omega
    · rintro rfl; omega
  unfold Env.cellOff Env.pos
  cases env.endian
  · simp only
    refine ⟨(key _ (by omega)).trans (by omega), fun h => ?_⟩
    rw [show κ - 1 - q = κ - 1 - b % κ by omega]; omega
  · simp only
    have e : W - (κ - 1 - b % κ + 1) * a = (b % κ) * a := by
      obtain ⟨d, hd⟩ : ∃ d, κ = b % κ + d := ⟨κ - b % κ, by omega⟩
      rw [show κ - 1 - b % κ + 1 = d by omega, hW]
      conv_lhs => rw [hd]
      rw [Nat.add_mul]; omega
    have em : (κ * (b / κ) + (κ - 1 - b % κ)) % κ = κ - 1 - b % κ := by
      rw [Nat.mul_add_mod, Nat.mod_eq_of_lt (by omega)]
    rw [e, em]
    refine ⟨(key _ hb).trans (by omega), fun h => ?_⟩
    rw [show κ - 1 - q = b % κ by omega]; omega

theorem pos_lt (env : Env) {κ b K : Nat} (hκ : 0 < κ) (hK : K % κ = 0) (hb : b < K) :
    env.pos κ b < K := by
  unfold Env.pos
  cases env.endian
  · exact hb
  · simp only
    have h1 : b / κ < K / κ := Nat.div_lt_of_lt_mul (by
      rw [Nat.mul_div_cancel' (Nat.dvd_of_mod_eq_zero hK)]; exact hb)
    have h2 := Nat.mul_div_cancel' (Nat.dvd_of_mod_eq_zero hK)
    have h3 : κ * (b / κ + 1) ≤ κ * (K / κ) := Nat.mul_le_mul_left κ h1
    rw [h2, Nat.mul_add] at h3
    omega

theorem pos_div (env : Env) {κ b : Nat} (hκ : 0 < κ) : env.pos κ b / κ = b / κ := by
  unfold Env.pos
  cases env.endian
  · rfl
  · simp only
    rw [Nat.mul_add_div hκ, Nat.div_eq_of_lt (show κ - 1 - b % κ < κ by omega), Nat.add_zero]

theorem pos_mod (env : Env) {κ b : Nat} (hκ : 0 < κ) : env.pos κ b % κ =
    match env.endian with | .little => b % κ | .big => κ - 1 - b % κ := by
  unfold Env.pos
  cases env.endian
  · rfl
  · simp only
    rw [Nat.mul_add_mod, Nat.mod_eq_of_lt (by omega)]

theorem pos_pos (env : Env) {κ b : Nat} (hκ : 0 < κ) : env.pos κ (env.pos κ b) = b := by
  have h1 := pos_div env (b := b) hκ
  have h2 := pos_mod env (b := b) hκ
  have hb := Nat.mod_lt b hκ
  have hd := Nat.div_add_mod b κ
  cases he : env.endian
  · simp [Env.pos, he]
  · rw [he] at h2
    simp only at h2
    rw [show env.pos κ (env.pos κ b) = κ * (env.pos κ b / κ) + (κ - 1 - env.pos κ b % κ) by
      conv_lhs => rw [Env.pos, he]]
    rw [h1, h2]; omega

/-! ## Row writers -/

/-- `f b x v` writes `v` as cell number `b` of the row `x`. -/
def CellOK {R : Type} (env : Env) (κ a N : Nat) (bit : R → Nat → Bool)
    (f : Nat → R → BitVec a → R) : Prop :=
  ∀ b x v c, b < N / a → c < N →
    bit (f b x v) c = if c / a = env.pos κ b then bitS a v (c % a) else bit x c

/-- One-word rows. -/
def fS (env : Env) (κ : Nat) {a N : Nat} (b : Nat) (x : BitVec N) (v : BitVec a) : BitVec N :=
  stRes env x (κ - 1 - b % κ) v

theorem cellS (env : Env) {κ a N : Nat} (hN : N = κ * a) (ha : 0 < a) (hκ : 0 < κ) :
    CellOK (R := BitVec N) env κ a N (bitS N) (fS env κ) := by
  intro b x v c hb hc
  have hb' : b < κ := by rwa [hN, Nat.mul_div_cancel _ ha] at hb
  obtain ⟨h1, h2⟩ := cell_iff env (b := b) hN ha hκ hc
  have hp : env.pos κ b % κ = env.pos κ b :=
    Nat.mod_eq_of_lt (pos_lt env hκ (Nat.mod_self κ) hb')
  have haN : a ≤ N := by rw [hN]; exact Nat.le_mul_of_pos_left a hκ
  unfold fS
  rw [show bitS N (stRes env x (κ - 1 - b % κ) v) c = _ from
    stRes_bit env x _ v (N - 1 - c) (by omega) haN]
  rw [hp] at h1 h2
  by_cases h : c / a = env.pos κ b
  · rw [if_pos h, if_pos (h1.2 h), h2 h]; rfl
  · rw [if_neg h, if_neg (fun e => h (h1.1 e))]; rfl

/-- Rows of `l` words. -/
def fW (env : Env) (κ : Nat) {a l : Nat} (b : Nat) (x : Vector (BitVec 64) l) (v : BitVec a) :
    Vector (BitVec 64) l :=
  if h : b / κ < l then x.set (b / κ) (stRes env x[b / κ] (κ - 1 - b % κ) v) else x

theorem cellW (env : Env) {κ a N l : Nat} (hN : N = 64 * l) (hκa : 64 = κ * a) (ha : 0 < a)
    (hκ : 0 < κ) : CellOK env κ a N (bitW (l := l)) (fW env κ) := by
  intro b x v c hb hc
  have ha64 : a ≤ 64 := by rw [hκa]; exact Nat.le_mul_of_pos_left a hκ
  have hNa : N / a = κ * l := by
    rw [hN, hκa, Nat.mul_right_comm, Nat.mul_div_cancel _ ha]
  have hq : b / κ < l := Nat.div_lt_of_lt_mul (by rw [← hNa]; exact hb)
  have hcl : c / 64 < l := by omega
  unfold fW
  rw [dif_pos hq, bitW_eq _ _ hcl, bitW_eq _ _ hcl, Vector.getElem_set]
  have hca : c / a = κ * (c / 64) + (c % 64) / a := by
    conv_lhs => rw [← Nat.div_add_mod c 64]
    conv_lhs => rw [show 64 * (c / 64) = a * (κ * (c / 64)) by rw [← Nat.mul_assoc, Nat.mul_comm a κ, ← hκa]]
    rw [Nat.mul_add_div ha]
  have hcma : c % a = (c % 64) % a := by
    rw [Nat.mod_mod_of_dvd]; exact ⟨κ, by rw [Nat.mul_comm]; exact hκa⟩
  have hlt : (c % 64) / a < κ := Nat.div_lt_of_lt_mul (by rw [Nat.mul_comm, ← hκa]; omega)
  obtain ⟨h1, h2⟩ := cell_iff env (b := b) hκa ha hκ (c := c % 64) (by omega)
  have hpd := pos_div env (b := b) hκ
  have hpm := Nat.div_add_mod (env.pos κ b) κ
  have hpl := Nat.mod_lt (env.pos κ b) hκ
  by_cases hw : b / κ = c / 64
  · simp only [hw, if_true]
    rw [stRes_bit env _ _ v (63 - c % 64) (by omega) ha64]
    have hiff : c / a = env.pos κ b ↔ (c % 64) / a = env.pos κ b % κ := by
      rw [hca, ← hw, ← hpd]; omega
    by_cases h : (c % 64) / a = env.pos κ b % κ
    · rw [if_pos (hiff.2 h), if_pos (h1.2 h)]
      rw [show 63 - c % 64 = 64 - 1 - c % 64 by omega, h2 h, ← hcma]; rfl
    · rw [if_neg (fun e => h (hiff.1 e)), if_neg (fun e => h (h1.1 e))]
  · rw [if_neg hw, if_neg]
    intro e
    rw [hca] at e
    have : (κ * (c / 64) + c % 64 / a) / κ = env.pos κ b / κ := by rw [e]
    rw [Nat.mul_add_div hκ, Nat.div_eq_of_lt hlt, hpd] at this
    omega

/-! ## Loops -/
section Loop
variable {R : Type} {a N : Nat} (z : R) (f : Nat → R → BitVec a → R)
  (blk : Nat → Nat → BitVec a)

/-- State before block number `b`. -/
def comInv (b : Nat) (s : Vector R N × Nat) : Prop :=
  s.2 = b * a ∧ ∀ r (h : r < N), s.1[r] = if r < b * a then f (r / a) z (blk (r / a) (r % a)) else z

theorem comInv_zero : comInv z f blk 0 (Vector.replicate N z, 0) :=
  ⟨by simp, fun r h => by simp⟩

theorem comStep (ha : 0 < a) {b : Nat} (hb : (b + 1) * a ≤ N) {s : Vector R N × Nat}
    (body : Nat → Vector R N × Nat → C (Vector R N × Nat))
    (hbody : ∀ i, i < a → ∀ (M : Vector R N) j (h : j < N),
      body i (M, j) = .ok (M.set j (f b M[j] (blk b i)), j + 1))
    (hs : comInv z f blk b s) :
    Ok (forUp 0 a s body) (comInv z f blk (b + 1)) := by
  rw [Nat.add_mul, Nat.one_mul] at hb
  refine Ok.forUp (fun i s => s.2 = b * a + i ∧ ∀ r (h : r < N), s.1[r] =
    if r < b * a + i then f (r / a) z (blk (r / a) (r % a)) else z) (Nat.zero_le _) hs ?_ ?_
  · rintro i ⟨M, j⟩ - hi ⟨hj, hM⟩
    simp only at hj hM
    subst hj
    rw [hbody i hi M _ (by omega), Ok.ok_iff]
    refine ⟨rfl, fun r h => ?_⟩
    simp only [Vector.getElem_set]
    have e1 : (b * a + i) / a = b := by
      rw [Nat.mul_comm, Nat.mul_add_div ha, Nat.div_eq_of_lt hi, Nat.add_zero]
    have e2 : (b * a + i) % a = i := by
      rw [Nat.mul_comm, Nat.mul_add_mod, Nat.mod_eq_of_lt hi]
    by_cases h' : b * a + i = r
    · subst h'
      rw [if_pos rfl, if_pos (by omega), hM _ h, if_neg (by omega), e1, e2]
    · rw [if_neg h', hM _ h]
      by_cases h2 : r < b * a + i
      · rw [if_pos h2, if_pos (by omega)]
      · rw [if_neg h2, if_neg (by omega)]
  · rintro ⟨M, j⟩ ⟨h1, h2⟩
    exact ⟨by rw [h1]; ring, fun r h => by rw [h2 r h, Nat.add_mul, Nat.one_mul]⟩

theorem comStepS (env : Env) {κ : Nat} (f : Nat → BitVec N → BitVec a → BitVec N)
    (hf : f = fS env κ)
    (hN : N = κ * a) (ha : 0 < a) {b k : Nat} (hk : k = κ - 1 - b % κ)
    (hb : (b + 1) * a ≤ N) (m : Vector (BitVec a) a) (hm : ∀ i (h : i < a), blk b i = m[i])
    {s : Vector (BitVec N) N × Nat}
    (hs : comInv 0 f blk b s) :
    Ok (forUp 0 a s fun i (mat, j) => do
        let mat ← wr mat j (← env.stSub (← rd mat j) k (← rd m i))
        pure (mat, j + 1)) (comInv 0 f blk (b + 1)) := by
  refine comStep 0 f blk ha hb _ ?_ hs
  intro i hi M j hj
  have hκ : 0 < κ := by
    rcases Nat.eq_zero_or_pos κ with h | h
    · subst h; rw [Nat.zero_mul] at hN; omega
    · exact h
  have hcap : (k + 1) * a ≤ N := by
    rw [hN]; exact Nat.mul_le_mul_right a (by omega)
  simp only
  rw [rd_ok _ _ hj, C_pure_bind, rd_ok _ _ hi, C_pure_bind, stSub_res _ _ _ _ hcap, C_pure_bind,
    wr_ok _ _ _ hj, C_pure_bind]
  subst hf hk
  rw [hm i hi]
  rfl

theorem comStepW (env : Env) {κ l : Nat}
    (f : Nat → Vector (BitVec 64) l → BitVec a → Vector (BitVec 64) l)
    (hf : f = fW env κ)
    (hκa : 64 = κ * a) (ha : 0 < a) {b k q : Nat} (hk : k = κ - 1 - b % κ) (hq : q = b / κ)
    (hql : q < l)
    (hb : (b + 1) * a ≤ N) (m : Vector (BitVec a) a) (hm : ∀ i (h : i < a), blk b i = m[i])
    {s : Vector (Vector (BitVec 64) l) N × Nat}
    (hs : comInv (Vector.replicate l 0) f blk b s) :
    Ok (forUp 0 a s fun i (mat, j) => do
        let mat ← wr2 mat j q (← env.stSub (← rd2 mat j q) k (← rd m i))
        pure (mat, j + 1)) (comInv (Vector.replicate l 0) f blk (b + 1)) := by
  refine comStep _ f blk ha hb _ ?_ hs
  intro i hi M j hj
  have hκ : 0 < κ := by
    rcases Nat.eq_zero_or_pos κ with h | h
    · subst h; omega
    · exact h
  have hcap : (k + 1) * a ≤ 64 := by
    rw [hκa]; exact Nat.mul_le_mul_right a (by omega)
  simp only
  rw [rd2_ok _ _ _ hj hql, C_pure_bind, rd_ok _ _ hi, C_pure_bind, stSub_res _ _ _ _ hcap,
    C_pure_bind, wr2_ok _ _ _ _ hj hql, C_pure_bind]
  subst hf hk hq
  rw [hm i hi]
  unfold fW
  rw [dif_pos hql]
  rfl

theorem comMat (env : Env) {κ K : Nat} (bit : R → Nat → Bool) (hK : N = K * a) (ha : 0 < a)
    (hf : CellOK env κ a N bit f) (hz : ∀ c, bit z c = false) {s : Vector R N × Nat}
    (hs : comInv z f blk K s) (r c : Fin N) :
    matOf N bit s.1 r c = if c.val / a = env.pos κ (r.val / a) then
      bitF (bitS a (blk (r.val / a) (r.val % a)) (c.val % a)) else 0 := by
  simp only [matOf, Fin.getElem_fin]
  rw [hs.2 r.val r.2, if_pos (by rw [← hK]; exact r.2), hf _ _ _ _ (by
    have hr : r.val < K * a := hK ▸ r.2
    have : N / a = K := by rw [hK, Nat.mul_div_cancel _ ha]
    rw [this]
    exact Nat.div_lt_of_lt_mul (by rw [Nat.mul_comm]; exact hr)) c.2]
  split
  · rfl
  · rw [hz]; rfl

end Loop

/-! ## Vectors -/
section Vec
variable {R : Type} {a N : Nat} (env : Env) (κ : Nat) (bit : R → Nat → Bool)
  (v : Nat → BitVec a)

def vecInv (b : Nat) (x : R) : Prop :=
  ∀ c, c < N → env.pos κ (c / a) < b → bit x c = bitS a (v (env.pos κ (c / a))) (c % a)

theorem vecInv_zero (x : R) : vecInv (N := N) env κ bit v 0 x := fun _ _ h => absurd h (Nat.not_lt_zero _)

theorem vecInv_step {f : Nat → R → BitVec a → R} (hκ : 0 < κ) (hf : CellOK env κ a N bit f)
    {b : Nat} (hb : b < N / a) {x : R} (h : vecInv (N := N) env κ bit v b x) :
    vecInv (N := N) env κ bit v (b + 1) (f b x (v b)) := by
  intro c hc hp
  rw [hf b x (v b) c hb hc]
  by_cases e : c / a = env.pos κ b
  · rw [if_pos e, e, pos_pos env hκ]
  · rw [if_neg e]
    refine h c hc ?_
    have : env.pos κ (c / a) ≠ b := fun e' => e (by rw [← e', pos_pos env hκ])
    omega

theorem vecInv_end {K : Nat} (hK : N = K * a) (hκ : 0 < κ) (hKκ : K % κ = 0) {x : R}
    (h : vecInv (N := N) env κ bit v K x) (c : Fin N) :
    vecOf N bit x c = bitF (bitS a (v (env.pos κ (c.val / a))) (c.val % a)) := by
  unfold vecOf
  rw [h c.val c.2]
  exact pos_lt env hκ hKκ (Nat.div_lt_of_lt_mul (by rw [Nat.mul_comm, ← hK]; exact c.2))
end Vec

theorem stVS (env : Env) {κ a N b k : Nat} (hN : N = κ * a) (hκ : 0 < κ) (hk : k = κ - 1 - b % κ)
    (x : BitVec N) (v : BitVec a) : env.stSub x k v = .ok (fS env κ b x v) := by
  have hcap : (k + 1) * a ≤ N := by
    rw [hN]; exact Nat.mul_le_mul_right a (by omega)
  rw [stSub_res _ _ _ _ hcap, hk]; rfl

theorem stVW (env : Env) {κ a l b k q : Nat} (hN : 64 = κ * a) (hκ : 0 < κ) (hk : k = κ - 1 - b % κ)
    (hq : q = b / κ) (hql : q < l) (x : Vector (BitVec 64) l) (v : BitVec a) :
    (do wr x q (← env.stSub (← rd x q) k v) : C _) = .ok (fW env κ b x v) := by
  have hcap : (k + 1) * a ≤ 64 := by
    rw [hN]; exact Nat.mul_le_mul_right a (by omega)
  rw [rd_ok _ _ hql, C_pure_bind, stSub_res _ _ _ _ hcap, C_pure_bind, wr_ok _ _ _ hql]
  subst hk hq
  unfold fW
  rw [dif_pos hql]

/-! ## Block matrices -/

theorem blockDiag_mulVec {k a : Nat} (B : Fin k → Mat a) (x : Fin k → Fin a → ZMod 2) :
    (blockDiag B).mulVec (concatV x) = concatV (fun b => (B b).mulVec (x b)) := by
  funext r
  simp only [Matrix.mulVec, dotProduct, concatV, blockDiag]
  rw [← Equiv.sum_comp finProdFinEquiv, Fintype.sum_prod_type]
  have hd : ∀ (b : Fin k) (t : Fin a), (finProdFinEquiv (b, t)).divNat = b := fun b t => by
    have := finProdFinEquiv.symm_apply_apply (b, t)
    exact congrArg Prod.fst this
  have hm : ∀ (b : Fin k) (t : Fin a), (finProdFinEquiv (b, t)).modNat = t := fun b t => by
    have := finProdFinEquiv.symm_apply_apply (b, t)
    exact congrArg Prod.snd this
  simp only [hd, hm]
  rw [Finset.sum_eq_single r.divNat]
  · simp
  · intro b _ hb
    refine Finset.sum_eq_zero fun t _ => ?_
    rw [if_neg (Ne.symm hb), zero_mul]
  · intro h; exact absurd (Finset.mem_univ _) h

theorem concatV_add {k a : Nat} (x y : Fin k → Fin a → ZMod 2) :
    concatV x + concatV y = concatV (fun b => x b + y b) := rfl

end WB
