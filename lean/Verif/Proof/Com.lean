import Verif.Proof.ComGen
import Verif.Model.Com

/-!
# Concatenation: the six size pairs

Generated once by `tools/gen_props5.py`; kept under version control as source.
-/
namespace WB
open Matrix

theorem stVW_bind (env : Env) {κ a l b k q : Nat} {γ : Type} (g : Vector (BitVec 64) l → C γ)
    {Q : γ → Prop} (hN : 64 = κ * a) (hκ : 0 < κ)
    (hk : k = κ - 1 - b % κ) (hq : q = b / κ) (hql : q < l) (x : Vector (BitVec 64) l)
    (v : BitVec a) (h : Ok (g (fW env κ b x v)) Q) :
    Ok (rd x q >>= fun y => env.stSub y k v >>= fun z => wr x q z >>= g) Q := by
  have e := stVW env hN hκ hk hq hql x v
  rw [show (rd x q >>= fun y => env.stSub y k v >>= fun z => wr x q z >>= g) =
    ((rd x q >>= fun y => env.stSub y k v >>= fun z => wr x q z) >>= g) by
      simp only [bind_assoc], e]
  exact h

theorem bitW_zero {l : Nat} (c : Nat) : bitW (Vector.replicate l (0 : BitVec 64)) c = false := by
  by_cases h : c / 64 < l
  · rw [bitW_eq _ _ h]; simp
  · simp [bitW, h]

theorem Ok.of_eq {α : Type} {x : C α} {y : α} {Q : α → Prop} (h : x = .ok y) (hq : Q y) :
    Ok x Q := ⟨y, h, hq⟩

/-- Rows of a list of blocks as a total function. -/
def blkOf {k a : Nat} (ms : Fin k → Vector (BitVec a) a) (b i : Nat) : BitVec a :=
  if h : b < k then (if hi : i < a then (ms ⟨b, h⟩)[i] else 0) else 0

theorem blkOf_eq {k a : Nat} (ms : Fin k → Vector (BitVec a) a) {b : Nat} (h : b < k)
    (m : Vector (BitVec a) a) (hm : ms ⟨b, h⟩ = m) : ∀ i (hi : i < a), blkOf ms b i = m[i] := by
  intro i hi
  unfold blkOf
  rw [dif_pos h, dif_pos hi]
  subst hm; rfl

def vOf {k a : Nat} (vs : Fin k → BitVec a) (b : Nat) : BitVec a :=
  if h : b < k then vs ⟨b, h⟩ else 0

/-- Where the big-endian machine puts block `b`: `rev b`. -/
theorem blk_general {k a κ : Nat} (env : Env) (ms : Fin k → Vector (BitVec a) a)
    (X : Matrix (Fin (k * a)) (Fin (k * a)) (ZMod 2)) (σ : Fin k → Fin k)
    (hσ : ∀ b, env.pos κ b.val = (σ b).val)
    (hX : ∀ r c : Fin (k * a), X r c = if c.val / a = env.pos κ (r.val / a) then
      bitF (bitS a (blkOf ms (r.val / a) (r.val % a)) (c.val % a)) else 0) :
    X = fun r c => if c.divNat = σ r.divNat then
      matOf a (bitS a) (ms r.divNat) r.modNat c.modNat else 0 := by
  funext r c
  rw [hX, show r.val / a = r.divNat.val from rfl, hσ]
  by_cases h : c.divNat = σ r.divNat
  · rw [if_pos h, if_pos (by rw [← h]; rfl)]
    unfold blkOf
    rw [dif_pos r.divNat.2, dif_pos (show r.val % a < a from r.modNat.2)]
    rfl
  · rw [if_neg h, if_neg (show ¬ c.val / a = (σ r.divNat).val from fun e => h (Fin.ext e))]

theorem blk_le {k a κ : Nat} (env : Env) (he : env.endian = .little)
    (ms : Fin k → Vector (BitVec a) a)
    (X : Matrix (Fin (k * a)) (Fin (k * a)) (ZMod 2))
    (hX : ∀ r c : Fin (k * a), X r c = if c.val / a = env.pos κ (r.val / a) then
      bitF (bitS a (blkOf ms (r.val / a) (r.val % a)) (c.val % a)) else 0) :
    X = blockDiag (fun b => matOf a (bitS a) (ms b)) := by
  rw [blk_general env ms X id (fun b => by simp [Env.pos, he]) hX]
  funext r c
  unfold blockDiag
  by_cases h : c.divNat = r.divNat
  · rw [if_pos h.symm, if_pos (show c.divNat = id r.divNat from h)]
  · rw [if_neg (show ¬ c.divNat = id r.divNat from h), if_neg (show ¬ r.divNat = c.divNat from fun e => h e.symm)]

theorem vec_general {k a κ : Nat} (env : Env) (vs : Fin k → BitVec a)
    (X : Fin (k * a) → ZMod 2) (σ : Fin k → Fin k)
    (hσ : ∀ b, env.pos κ b.val = (σ b).val)
    (hX : ∀ c : Fin (k * a), X c = bitF (bitS a (vOf vs (env.pos κ (c.val / a))) (c.val % a))) :
    X = concatV (fun b => vecOf a (bitS a) (vs (σ b))) := by
  funext c
  rw [hX, show c.val / a = c.divNat.val from rfl, hσ]
  unfold vOf
  rw [dif_pos (σ c.divNat).2]
  rfl

theorem vec_le {k a κ : Nat} (env : Env) (he : env.endian = .little) (vs : Fin k → BitVec a)
    (X : Fin (k * a) → ZMod 2)
    (hX : ∀ c : Fin (k * a), X c = bitF (bitS a (vOf vs (env.pos κ (c.val / a))) (c.val % a))) :
    X = concatV (fun b => vecOf a (bitS a) (vs b)) :=
  vec_general env vs X id (fun b => by simp [Env.pos, he]) hX

theorem concatV_inj {k a : Nat} {x y : Fin k → Fin a → ZMod 2} (h : concatV x = concatV y) :
    x = y := by
  funext b t
  have := congrFun h (finProdFinEquiv (b, t))
  have h1 : (finProdFinEquiv (b, t)).divNat = b :=
    congrArg Prod.fst (finProdFinEquiv.symm_apply_apply (b, t))
  have h2 : (finProdFinEquiv (b, t)).modNat = t :=
    congrArg Prod.snd (finProdFinEquiv.symm_apply_apply (b, t))
  simpa only [concatV, h1, h2] using this

/-- A matrix whose blocks sit in the column blocks `σ b` is block diagonal only if it is zero,
when `σ` has no fixed point. -/
theorem blk_zero_iff {k a : Nat} (B : Fin k → Mat a) (σ : Fin k → Fin k) (hσ : ∀ b, σ b ≠ b) :
    ((fun r c : Fin (k * a) => if c.divNat = σ r.divNat then B r.divNat r.modNat c.modNat else 0)
      = blockDiag B) ↔ ∀ b, B b = 0 := by
  constructor
  · intro h b
    ext i j
    have := congrFun (congrFun h (finProdFinEquiv (b, i))) (finProdFinEquiv (b, j))
    have hd : ∀ (b : Fin k) (t : Fin a), (finProdFinEquiv (b, t)).divNat = b := fun b t =>
      congrArg Prod.fst (finProdFinEquiv.symm_apply_apply (b, t))
    have hm : ∀ (b : Fin k) (t : Fin a), (finProdFinEquiv (b, t)).modNat = t := fun b t =>
      congrArg Prod.snd (finProdFinEquiv.symm_apply_apply (b, t))
    simp only [blockDiag, hd, hm] at this
    simp only [if_neg (fun e => hσ b e.symm : ¬ b = σ b)] at this
    simpa using this.symm
  · intro h
    funext r c
    simp [blockDiag, h]

/-! ## The size pairs -/

theorem MatrixcomM8to32_gen (env : Env) (m1 m2 m3 m4 : M8) (mat : M32) :
    Ok (MatrixcomM8to32 env m1 m2 m3 m4 mat) (fun M => ∀ r c : Fin 32, mat32 M r c =
      if c.val / 8 = env.pos 4 (r.val / 8) then
        bitF (bitS 8 (blkOf ![m1, m2, m3, m4] (r.val / 8) (r.val % 8)) (c.val % 8)) else 0) := by
  unfold MatrixcomM8to32
  rw [initM32_eq, C_pure_bind]
  have h0 := comInv_zero (N := 32) (0 : BitVec 32) (fS env 4)
    (blkOf (a := 8) ![m1, m2, m3, m4])
  refine Ok.bind (comStepS (N := 32) _ env (κ := 4) _ rfl (by norm_num) (by norm_num) (b := 0) (by norm_num)
    (by norm_num) m1 (blkOf_eq _ (by norm_num) _ rfl) h0) fun s1 h1 => ?_
  refine Ok.bind (comStepS (N := 32) _ env (κ := 4) _ rfl (by norm_num) (by norm_num) (b := 1) (by norm_num)
    (by norm_num) m2 (blkOf_eq _ (by norm_num) _ rfl) h1) fun s2 h2 => ?_
  refine Ok.bind (comStepS (N := 32) _ env (κ := 4) _ rfl (by norm_num) (by norm_num) (b := 2) (by norm_num)
    (by norm_num) m3 (blkOf_eq _ (by norm_num) _ rfl) h2) fun s3 h3 => ?_
  refine Ok.bind (comStepS (N := 32) _ env (κ := 4) _ rfl (by norm_num) (by norm_num) (b := 3) (by norm_num)
    (by norm_num) m4 (blkOf_eq _ (by norm_num) _ rfl) h3) fun s4 h4 => ?_
  rw [Ok.pure_iff]
  exact comMat _ _ _ env (K := 4) _ (by norm_num) (by norm_num) (cellS env (by norm_num) (by norm_num) (by norm_num)) (by intro c; simp [bitS]) h4

theorem VectorcomV8to32_gen (env : Env) (v1 v2 v3 v4 : V8) (vec : V32) :
    Ok (VectorcomV8to32 env v1 v2 v3 v4 vec) (fun X => ∀ c : Fin 32, vec32 X c =
      bitF (bitS 8 (vOf ![v1, v2, v3, v4] (env.pos 4 (c.val / 8))) (c.val % 8))) := by
  unfold VectorcomV8to32
  have hc := cellS (a := 8) (κ := 4) (N := 32) env (by norm_num) (by norm_num) (by norm_num)
  have h0 := vecInv_zero (N := 32) env 4 (bitS 32 (w := 32)) (vOf (a := 8) ![v1, v2, v3, v4]) vec
  have h1 := vecInv_step env 4 (bitS 32 (w := 32)) _ (by norm_num) hc (b := 0) (by norm_num) h0
  have h2 := vecInv_step env 4 (bitS 32 (w := 32)) _ (by norm_num) hc (b := 1) (by norm_num) h1
  have h3 := vecInv_step env 4 (bitS 32 (w := 32)) _ (by norm_num) hc (b := 2) (by norm_num) h2
  have h4 := vecInv_step env 4 (bitS 32 (w := 32)) _ (by norm_num) hc (b := 3) (by norm_num) h3
  rw [stVS env (κ := 4) (b := 0) (by norm_num) (by norm_num) (by norm_num), C_pure_bind]
  rw [stVS env (κ := 4) (b := 1) (by norm_num) (by norm_num) (by norm_num), C_pure_bind]
  rw [stVS env (κ := 4) (b := 2) (by norm_num) (by norm_num) (by norm_num), C_pure_bind]
  rw [stVS env (κ := 4) (b := 3) (by norm_num) (by norm_num) (by norm_num), Ok.ok_iff]
  exact vecInv_end env 4 _ _ (K := 4) (by norm_num) (by norm_num) (by norm_num) h4

theorem MatrixcomM16to64_gen (env : Env) (m1 m2 m3 m4 : M16) (mat : M64) :
    Ok (MatrixcomM16to64 env m1 m2 m3 m4 mat) (fun M => ∀ r c : Fin 64, mat64 M r c =
      if c.val / 16 = env.pos 4 (r.val / 16) then
        bitF (bitS 16 (blkOf ![m1, m2, m3, m4] (r.val / 16) (r.val % 16)) (c.val % 16)) else 0) := by
  unfold MatrixcomM16to64
  rw [initM64_eq, C_pure_bind]
  have h0 := comInv_zero (N := 64) (0 : BitVec 64) (fS env 4)
    (blkOf (a := 16) ![m1, m2, m3, m4])
  refine Ok.bind (comStepS (N := 64) _ env (κ := 4) _ rfl (by norm_num) (by norm_num) (b := 0) (by norm_num)
    (by norm_num) m1 (blkOf_eq _ (by norm_num) _ rfl) h0) fun s1 h1 => ?_
  refine Ok.bind (comStepS (N := 64) _ env (κ := 4) _ rfl (by norm_num) (by norm_num) (b := 1) (by norm_num)
    (by norm_num) m2 (blkOf_eq _ (by norm_num) _ rfl) h1) fun s2 h2 => ?_
  refine Ok.bind (comStepS (N := 64) _ env (κ := 4) _ rfl (by norm_num) (by norm_num) (b := 2) (by norm_num)
    (by norm_num) m3 (blkOf_eq _ (by norm_num) _ rfl) h2) fun s3 h3 => ?_
  refine Ok.bind (comStepS (N := 64) _ env (κ := 4) _ rfl (by norm_num) (by norm_num) (b := 3) (by norm_num)
    (by norm_num) m4 (blkOf_eq _ (by norm_num) _ rfl) h3) fun s4 h4 => ?_
  rw [Ok.pure_iff]
  exact comMat _ _ _ env (K := 4) _ (by norm_num) (by norm_num) (cellS env (by norm_num) (by norm_num) (by norm_num)) (by intro c; simp [bitS]) h4

theorem VectorcomV16to64_gen (env : Env) (v1 v2 v3 v4 : V16) (vec : V64) :
    Ok (VectorcomV16to64 env v1 v2 v3 v4 vec) (fun X => ∀ c : Fin 64, vec64 X c =
      bitF (bitS 16 (vOf ![v1, v2, v3, v4] (env.pos 4 (c.val / 16))) (c.val % 16))) := by
  unfold VectorcomV16to64
  have hc := cellS (a := 16) (κ := 4) (N := 64) env (by norm_num) (by norm_num) (by norm_num)
  have h0 := vecInv_zero (N := 64) env 4 (bitS 64 (w := 64)) (vOf (a := 16) ![v1, v2, v3, v4]) vec
  have h1 := vecInv_step env 4 (bitS 64 (w := 64)) _ (by norm_num) hc (b := 0) (by norm_num) h0
  have h2 := vecInv_step env 4 (bitS 64 (w := 64)) _ (by norm_num) hc (b := 1) (by norm_num) h1
  have h3 := vecInv_step env 4 (bitS 64 (w := 64)) _ (by norm_num) hc (b := 2) (by norm_num) h2
  have h4 := vecInv_step env 4 (bitS 64 (w := 64)) _ (by norm_num) hc (b := 3) (by norm_num) h3
  rw [stVS env (κ := 4) (b := 0) (by norm_num) (by norm_num) (by norm_num), C_pure_bind]
  rw [stVS env (κ := 4) (b := 1) (by norm_num) (by norm_num) (by norm_num), C_pure_bind]
  rw [stVS env (κ := 4) (b := 2) (by norm_num) (by norm_num) (by norm_num), C_pure_bind]
  rw [stVS env (κ := 4) (b := 3) (by norm_num) (by norm_num) (by norm_num), Ok.ok_iff]
  exact vecInv_end env 4 _ _ (K := 4) (by norm_num) (by norm_num) (by norm_num) h4

theorem MatrixcomM8to64_gen (env : Env) (m1 m2 m3 m4 m5 m6 m7 m8 : M8) (mat : M64) :
    Ok (MatrixcomM8to64 env m1 m2 m3 m4 m5 m6 m7 m8 mat) (fun M => ∀ r c : Fin 64, mat64 M r c =
      if c.val / 8 = env.pos 8 (r.val / 8) then
        bitF (bitS 8 (blkOf ![m1, m2, m3, m4, m5, m6, m7, m8] (r.val / 8) (r.val % 8)) (c.val % 8)) else 0) := by
  unfold MatrixcomM8to64
  rw [initM64_eq, C_pure_bind]
  have h0 := comInv_zero (N := 64) (0 : BitVec 64) (fS env 8)
    (blkOf (a := 8) ![m1, m2, m3, m4, m5, m6, m7, m8])
  refine Ok.bind (comStepS (N := 64) _ env (κ := 8) _ rfl (by norm_num) (by norm_num) (b := 0) (by norm_num)
    (by norm_num) m1 (blkOf_eq _ (by norm_num) _ rfl) h0) fun s1 h1 => ?_
  refine Ok.bind (comStepS (N := 64) _ env (κ := 8) _ rfl (by norm_num) (by norm_num) (b := 1) (by norm_num)
    (by norm_num) m2 (blkOf_eq _ (by norm_num) _ rfl) h1) fun s2 h2 => ?_
  refine Ok.bind (comStepS (N := 64) _ env (κ := 8) _ rfl (by norm_num) (by norm_num) (b := 2) (by norm_num)
    (by norm_num) m3 (blkOf_eq _ (by norm_num) _ rfl) h2) fun s3 h3 => ?_
  refine Ok.bind (comStepS (N := 64) _ env (κ := 8) _ rfl (by norm_num) (by norm_num) (b := 3) (by norm_num)
    (by norm_num) m4 (blkOf_eq _ (by norm_num) _ rfl) h3) fun s4 h4 => ?_
  refine Ok.bind (comStepS (N := 64) _ env (κ := 8) _ rfl (by norm_num) (by norm_num) (b := 4) (by norm_num)
    (by norm_num) m5 (blkOf_eq _ (by norm_num) _ rfl) h4) fun s5 h5 => ?_
  refine Ok.bind (comStepS (N := 64) _ env (κ := 8) _ rfl (by norm_num) (by norm_num) (b := 5) (by norm_num)
    (by norm_num) m6 (blkOf_eq _ (by norm_num) _ rfl) h5) fun s6 h6 => ?_
  refine Ok.bind (comStepS (N := 64) _ env (κ := 8) _ rfl (by norm_num) (by norm_num) (b := 6) (by norm_num)
    (by norm_num) m7 (blkOf_eq _ (by norm_num) _ rfl) h6) fun s7 h7 => ?_
  refine Ok.bind (comStepS (N := 64) _ env (κ := 8) _ rfl (by norm_num) (by norm_num) (b := 7) (by norm_num)
    (by norm_num) m8 (blkOf_eq _ (by norm_num) _ rfl) h7) fun s8 h8 => ?_
  rw [Ok.pure_iff]
  exact comMat _ _ _ env (K := 8) _ (by norm_num) (by norm_num) (cellS env (by norm_num) (by norm_num) (by norm_num)) (by intro c; simp [bitS]) h8

theorem VectorcomV8to64_gen (env : Env) (v1 v2 v3 v4 v5 v6 v7 v8 : V8) (vec : V64) :
    Ok (VectorcomV8to64 env v1 v2 v3 v4 v5 v6 v7 v8 vec) (fun X => ∀ c : Fin 64, vec64 X c =
      bitF (bitS 8 (vOf ![v1, v2, v3, v4, v5, v6, v7, v8] (env.pos 8 (c.val / 8))) (c.val % 8))) := by
  unfold VectorcomV8to64
  have hc := cellS (a := 8) (κ := 8) (N := 64) env (by norm_num) (by norm_num) (by norm_num)
  have h0 := vecInv_zero (N := 64) env 8 (bitS 64 (w := 64)) (vOf (a := 8) ![v1, v2, v3, v4, v5, v6, v7, v8]) vec
  have h1 := vecInv_step env 8 (bitS 64 (w := 64)) _ (by norm_num) hc (b := 0) (by norm_num) h0
  have h2 := vecInv_step env 8 (bitS 64 (w := 64)) _ (by norm_num) hc (b := 1) (by norm_num) h1
  have h3 := vecInv_step env 8 (bitS 64 (w := 64)) _ (by norm_num) hc (b := 2) (by norm_num) h2
  have h4 := vecInv_step env 8 (bitS 64 (w := 64)) _ (by norm_num) hc (b := 3) (by norm_num) h3
  have h5 := vecInv_step env 8 (bitS 64 (w := 64)) _ (by norm_num) hc (b := 4) (by norm_num) h4
  have h6 := vecInv_step env 8 (bitS 64 (w := 64)) _ (by norm_num) hc (b := 5) (by norm_num) h5
  have h7 := vecInv_step env 8 (bitS 64 (w := 64)) _ (by norm_num) hc (b := 6) (by norm_num) h6
  have h8 := vecInv_step env 8 (bitS 64 (w := 64)) _ (by norm_num) hc (b := 7) (by norm_num) h7
  rw [stVS env (κ := 8) (b := 0) (by norm_num) (by norm_num) (by norm_num), C_pure_bind]
  rw [stVS env (κ := 8) (b := 1) (by norm_num) (by norm_num) (by norm_num), C_pure_bind]
  rw [stVS env (κ := 8) (b := 2) (by norm_num) (by norm_num) (by norm_num), C_pure_bind]
  rw [stVS env (κ := 8) (b := 3) (by norm_num) (by norm_num) (by norm_num), C_pure_bind]
  rw [stVS env (κ := 8) (b := 4) (by norm_num) (by norm_num) (by norm_num), C_pure_bind]
  rw [stVS env (κ := 8) (b := 5) (by norm_num) (by norm_num) (by norm_num), C_pure_bind]
  rw [stVS env (κ := 8) (b := 6) (by norm_num) (by norm_num) (by norm_num), C_pure_bind]
  rw [stVS env (κ := 8) (b := 7) (by norm_num) (by norm_num) (by norm_num), Ok.ok_iff]
  exact vecInv_end env 8 _ _ (K := 8) (by norm_num) (by norm_num) (by norm_num) h8

theorem MatrixcomM32to128_gen (env : Env) (m1 m2 m3 m4 : M32) (mat : M128) :
    Ok (MatrixcomM32to128 env m1 m2 m3 m4 mat) (fun M => ∀ r c : Fin 128, mat128 M r c =
      if c.val / 32 = env.pos 2 (r.val / 32) then
        bitF (bitS 32 (blkOf ![m1, m2, m3, m4] (r.val / 32) (r.val % 32)) (c.val % 32)) else 0) := by
  unfold MatrixcomM32to128
  rw [initM128_eq, C_pure_bind]
  have h0 := comInv_zero (N := 128) (Vector.replicate 2 (0 : BitVec 64)) (fW env 2)
    (blkOf (a := 32) ![m1, m2, m3, m4])
  refine Ok.bind (comStepW (N := 128) _ env (κ := 2) _ rfl (by norm_num) (by norm_num) (b := 0) (by norm_num) (by norm_num) (by norm_num)
    (by norm_num) m1 (blkOf_eq _ (by norm_num) _ rfl) h0) fun s1 h1 => ?_
  refine Ok.bind (comStepW (N := 128) _ env (κ := 2) _ rfl (by norm_num) (by norm_num) (b := 1) (by norm_num) (by norm_num) (by norm_num)
    (by norm_num) m2 (blkOf_eq _ (by norm_num) _ rfl) h1) fun s2 h2 => ?_
  refine Ok.bind (comStepW (N := 128) _ env (κ := 2) _ rfl (by norm_num) (by norm_num) (b := 2) (by norm_num) (by norm_num) (by norm_num)
    (by norm_num) m3 (blkOf_eq _ (by norm_num) _ rfl) h2) fun s3 h3 => ?_
  refine Ok.bind (comStepW (N := 128) _ env (κ := 2) _ rfl (by norm_num) (by norm_num) (b := 3) (by norm_num) (by norm_num) (by norm_num)
    (by norm_num) m4 (blkOf_eq _ (by norm_num) _ rfl) h3) fun s4 h4 => ?_
  rw [Ok.pure_iff]
  exact comMat _ _ _ env (K := 4) _ (by norm_num) (by norm_num) (cellW env (l := 2) (by norm_num) (by norm_num) (by norm_num) (by norm_num)) (bitW_zero) h4

theorem VectorcomV32to128_gen (env : Env) (v1 v2 v3 v4 : V32) (vec : V128) :
    Ok (VectorcomV32to128 env v1 v2 v3 v4 vec) (fun X => ∀ c : Fin 128, vec128 X c =
      bitF (bitS 32 (vOf ![v1, v2, v3, v4] (env.pos 2 (c.val / 32))) (c.val % 32))) := by
  unfold VectorcomV32to128
  have hc := cellW (a := 32) (κ := 2) (N := 128) env (l := 2) (by norm_num) (by norm_num) (by norm_num) (by norm_num)
  have h0 := vecInv_zero (N := 128) env 2 (bitW (l := 2)) (vOf (a := 32) ![v1, v2, v3, v4]) vec
  have h1 := vecInv_step env 2 (bitW (l := 2)) _ (by norm_num) hc (b := 0) (by norm_num) h0
  have h2 := vecInv_step env 2 (bitW (l := 2)) _ (by norm_num) hc (b := 1) (by norm_num) h1
  have h3 := vecInv_step env 2 (bitW (l := 2)) _ (by norm_num) hc (b := 2) (by norm_num) h2
  have h4 := vecInv_step env 2 (bitW (l := 2)) _ (by norm_num) hc (b := 3) (by norm_num) h3
  refine stVW_bind env (κ := 2) (b := 0) _ (by norm_num) (by norm_num) (by norm_num) (by norm_num) (by norm_num) _ _ ?_
  refine stVW_bind env (κ := 2) (b := 1) _ (by norm_num) (by norm_num) (by norm_num) (by norm_num) (by norm_num) _ _ ?_
  refine stVW_bind env (κ := 2) (b := 2) _ (by norm_num) (by norm_num) (by norm_num) (by norm_num) (by norm_num) _ _ ?_
  refine Ok.of_eq (stVW env (κ := 2) (a := 32) (b := 3) (k := 0) (q := 1) (l := 2) (by norm_num) (by norm_num) (by norm_num) (by norm_num) (by norm_num) _ _) ?_
  exact vecInv_end env 2 _ _ (K := 4) (by norm_num) (by norm_num) (by norm_num) h4

theorem MatrixcomM8to128_gen (env : Env) (m1 m2 m3 m4 m5 m6 m7 m8 m9 m10 m11 m12 m13 m14 m15 m16 : M8) (mat : M128) :
    Ok (MatrixcomM8to128 env m1 m2 m3 m4 m5 m6 m7 m8 m9 m10 m11 m12 m13 m14 m15 m16 mat) (fun M => ∀ r c : Fin 128, mat128 M r c =
      if c.val / 8 = env.pos 8 (r.val / 8) then
        bitF (bitS 8 (blkOf ![m1, m2, m3, m4, m5, m6, m7, m8, m9, m10, m11, m12, m13, m14, m15, m16] (r.val / 8) (r.val % 8)) (c.val % 8)) else 0) := by
  unfold MatrixcomM8to128
  rw [initM128_eq, C_pure_bind]
  have h0 := comInv_zero (N := 128) (Vector.replicate 2 (0 : BitVec 64)) (fW env 8)
    (blkOf (a := 8) ![m1, m2, m3, m4, m5, m6, m7, m8, m9, m10, m11, m12, m13, m14, m15, m16])
  refine Ok.bind (comStepW (N := 128) _ env (κ := 8) _ rfl (by norm_num) (by norm_num) (b := 0) (by norm_num) (by norm_num) (by norm_num)
    (by norm_num) m1 (blkOf_eq _ (by norm_num) _ rfl) h0) fun s1 h1 => ?_
  refine Ok.bind (comStepW (N := 128) _ env (κ := 8) _ rfl (by norm_num) (by norm_num) (b := 1) (by norm_num) (by norm_num) (by norm_num)
    (by norm_num) m2 (blkOf_eq _ (by norm_num) _ rfl) h1) fun s2 h2 => ?_
  refine Ok.bind (comStepW (N := 128) _ env (κ := 8) _ rfl (by norm_num) (by norm_num) (b := 2) (by norm_num) (by norm_num) (by norm_num)
    (by norm_num) m3 (blkOf_eq _ (by norm_num) _ rfl) h2) fun s3 h3 => ?_
  refine Ok.bind (comStepW (N := 128) _ env (κ := 8) _ rfl (by norm_num) (by norm_num) (b := 3) (by norm_num) (by norm_num) (by norm_num)
    (by norm_num) m4 (blkOf_eq _ (by norm_num) _ rfl) h3) fun s4 h4 => ?_
  refine Ok.bind (comStepW (N := 128) _ env (κ := 8) _ rfl (by norm_num) (by norm_num) (b := 4) (by norm_num) (by norm_num) (by norm_num)
    (by norm_num) m5 (blkOf_eq _ (by norm_num) _ rfl) h4) fun s5 h5 => ?_
  refine Ok.bind (comStepW (N := 128) _ env (κ := 8) _ rfl (by norm_num) (by norm_num) (b := 5) (by norm_num) (by norm_num) (by norm_num)
    (by norm_num) m6 (blkOf_eq _ (by norm_num) _ rfl) h5) fun s6 h6 => ?_
  refine Ok.bind (comStepW (N := 128) _ env (κ := 8) _ rfl (by norm_num) (by norm_num) (b := 6) (by norm_num) (by norm_num) (by norm_num)
    (by norm_num) m7 (blkOf_eq _ (by norm_num) _ rfl) h6) fun s7 h7 => ?_
  refine Ok.bind (comStepW (N := 128) _ env (κ := 8) _ rfl (by norm_num) (by norm_num) (b := 7) (by norm_num) (by norm_num) (by norm_num)
    (by norm_num) m8 (blkOf_eq _ (by norm_num) _ rfl) h7) fun s8 h8 => ?_
  refine Ok.bind (comStepW (N := 128) _ env (κ := 8) _ rfl (by norm_num) (by norm_num) (b := 8) (by norm_num) (by norm_num) (by norm_num)
    (by norm_num) m9 (blkOf_eq _ (by norm_num) _ rfl) h8) fun s9 h9 => ?_
  refine Ok.bind (comStepW (N := 128) _ env (κ := 8) _ rfl (by norm_num) (by norm_num) (b := 9) (by norm_num) (by norm_num) (by norm_num)
    (by norm_num) m10 (blkOf_eq _ (by norm_num) _ rfl) h9) fun s10 h10 => ?_
  refine Ok.bind (comStepW (N := 128) _ env (κ := 8) _ rfl (by norm_num) (by norm_num) (b := 10) (by norm_num) (by norm_num) (by norm_num)
    (by norm_num) m11 (blkOf_eq _ (by norm_num) _ rfl) h10) fun s11 h11 => ?_
  refine Ok.bind (comStepW (N := 128) _ env (κ := 8) _ rfl (by norm_num) (by norm_num) (b := 11) (by norm_num) (by norm_num) (by norm_num)
    (by norm_num) m12 (blkOf_eq _ (by norm_num) _ rfl) h11) fun s12 h12 => ?_
  refine Ok.bind (comStepW (N := 128) _ env (κ := 8) _ rfl (by norm_num) (by norm_num) (b := 12) (by norm_num) (by norm_num) (by norm_num)
    (by norm_num) m13 (blkOf_eq _ (by norm_num) _ rfl) h12) fun s13 h13 => ?_
  refine Ok.bind (comStepW (N := 128) _ env (κ := 8) _ rfl (by norm_num) (by norm_num) (b := 13) (by norm_num) (by norm_num) (by norm_num)
    (by norm_num) m14 (blkOf_eq _ (by norm_num) _ rfl) h13) fun s14 h14 => ?_
  refine Ok.bind (comStepW (N := 128) _ env (κ := 8) _ rfl (by norm_num) (by norm_num) (b := 14) (by norm_num) (by norm_num) (by norm_num)
    (by norm_num) m15 (blkOf_eq _ (by norm_num) _ rfl) h14) fun s15 h15 => ?_
  refine Ok.bind (comStepW (N := 128) _ env (κ := 8) _ rfl (by norm_num) (by norm_num) (b := 15) (by norm_num) (by norm_num) (by norm_num)
    (by norm_num) m16 (blkOf_eq _ (by norm_num) _ rfl) h15) fun s16 h16 => ?_
  rw [Ok.pure_iff]
  exact comMat _ _ _ env (K := 16) _ (by norm_num) (by norm_num) (cellW env (l := 2) (by norm_num) (by norm_num) (by norm_num) (by norm_num)) (bitW_zero) h16

theorem VectorcomV8to128_gen (env : Env) (v1 v2 v3 v4 v5 v6 v7 v8 v9 v10 v11 v12 v13 v14 v15 v16 : V8) (vec : V128) :
    Ok (VectorcomV8to128 env v1 v2 v3 v4 v5 v6 v7 v8 v9 v10 v11 v12 v13 v14 v15 v16 vec) (fun X => ∀ c : Fin 128, vec128 X c =
      bitF (bitS 8 (vOf ![v1, v2, v3, v4, v5, v6, v7, v8, v9, v10, v11, v12, v13, v14, v15, v16] (env.pos 8 (c.val / 8))) (c.val % 8))) := by
  unfold VectorcomV8to128
  have hc := cellW (a := 8) (κ := 8) (N := 128) env (l := 2) (by norm_num) (by norm_num) (by norm_num) (by norm_num)
  have h0 := vecInv_zero (N := 128) env 8 (bitW (l := 2)) (vOf (a := 8) ![v1, v2, v3, v4, v5, v6, v7, v8, v9, v10, v11, v12, v13, v14, v15, v16]) vec
  have h1 := vecInv_step env 8 (bitW (l := 2)) _ (by norm_num) hc (b := 0) (by norm_num) h0
  have h2 := vecInv_step env 8 (bitW (l := 2)) _ (by norm_num) hc (b := 1) (by norm_num) h1
  have h3 := vecInv_step env 8 (bitW (l := 2)) _ (by norm_num) hc (b := 2) (by norm_num) h2
  have h4 := vecInv_step env 8 (bitW (l := 2)) _ (by norm_num) hc (b := 3) (by norm_num) h3
  have h5 := vecInv_step env 8 (bitW (l := 2)) _ (by norm_num) hc (b := 4) (by norm_num) h4
  have h6 := vecInv_step env 8 (bitW (l := 2)) _ (by norm_num) hc (b := 5) (by norm_num) h5
  have h7 := vecInv_step env 8 (bitW (l := 2)) _ (by norm_num) hc (b := 6) (by norm_num) h6
  have h8 := vecInv_step env 8 (bitW (l := 2)) _ (by norm_num) hc (b := 7) (by norm_num) h7
  have h9 := vecInv_step env 8 (bitW (l := 2)) _ (by norm_num) hc (b := 8) (by norm_num) h8
  have h10 := vecInv_step env 8 (bitW (l := 2)) _ (by norm_num) hc (b := 9) (by norm_num) h9
  have h11 := vecInv_step env 8 (bitW (l := 2)) _ (by norm_num) hc (b := 10) (by norm_num) h10
  have h12 := vecInv_step env 8 (bitW (l := 2)) _ (by norm_num) hc (b := 11) (by norm_num) h11
  have h13 := vecInv_step env 8 (bitW (l := 2)) _ (by norm_num) hc (b := 12) (by norm_num) h12
  have h14 := vecInv_step env 8 (bitW (l := 2)) _ (by norm_num) hc (b := 13) (by norm_num) h13
  have h15 := vecInv_step env 8 (bitW (l := 2)) _ (by norm_num) hc (b := 14) (by norm_num) h14
  have h16 := vecInv_step env 8 (bitW (l := 2)) _ (by norm_num) hc (b := 15) (by norm_num) h15
  refine stVW_bind env (κ := 8) (b := 0) _ (by norm_num) (by norm_num) (by norm_num) (by norm_num) (by norm_num) _ _ ?_
  refine stVW_bind env (κ := 8) (b := 1) _ (by norm_num) (by norm_num) (by norm_num) (by norm_num) (by norm_num) _ _ ?_
  refine stVW_bind env (κ := 8) (b := 2) _ (by norm_num) (by norm_num) (by norm_num) (by norm_num) (by norm_num) _ _ ?_
  refine stVW_bind env (κ := 8) (b := 3) _ (by norm_num) (by norm_num) (by norm_num) (by norm_num) (by norm_num) _ _ ?_
  refine stVW_bind env (κ := 8) (b := 4) _ (by norm_num) (by norm_num) (by norm_num) (by norm_num) (by norm_num) _ _ ?_
  refine stVW_bind env (κ := 8) (b := 5) _ (by norm_num) (by norm_num) (by norm_num) (by norm_num) (by norm_num) _ _ ?_
  refine stVW_bind env (κ := 8) (b := 6) _ (by norm_num) (by norm_num) (by norm_num) (by norm_num) (by norm_num) _ _ ?_
  refine stVW_bind env (κ := 8) (b := 7) _ (by norm_num) (by norm_num) (by norm_num) (by norm_num) (by norm_num) _ _ ?_
  refine stVW_bind env (κ := 8) (b := 8) _ (by norm_num) (by norm_num) (by norm_num) (by norm_num) (by norm_num) _ _ ?_
  refine stVW_bind env (κ := 8) (b := 9) _ (by norm_num) (by norm_num) (by norm_num) (by norm_num) (by norm_num) _ _ ?_
  refine stVW_bind env (κ := 8) (b := 10) _ (by norm_num) (by norm_num) (by norm_num) (by norm_num) (by norm_num) _ _ ?_
  refine stVW_bind env (κ := 8) (b := 11) _ (by norm_num) (by norm_num) (by norm_num) (by norm_num) (by norm_num) _ _ ?_
  refine stVW_bind env (κ := 8) (b := 12) _ (by norm_num) (by norm_num) (by norm_num) (by norm_num) (by norm_num) _ _ ?_
  refine stVW_bind env (κ := 8) (b := 13) _ (by norm_num) (by norm_num) (by norm_num) (by norm_num) (by norm_num) _ _ ?_
  refine stVW_bind env (κ := 8) (b := 14) _ (by norm_num) (by norm_num) (by norm_num) (by norm_num) (by norm_num) _ _ ?_
  refine Ok.of_eq (stVW env (κ := 8) (a := 8) (b := 15) (k := 0) (q := 1) (l := 2) (by norm_num) (by norm_num) (by norm_num) (by norm_num) (by norm_num) _ _) ?_
  exact vecInv_end env 8 _ _ (K := 16) (by norm_num) (by norm_num) (by norm_num) h16

theorem MatrixcomM16to128_gen (env : Env) (m1 m2 m3 m4 m5 m6 m7 m8 : M16) (mat : M128) :
    Ok (MatrixcomM16to128 env m1 m2 m3 m4 m5 m6 m7 m8 mat) (fun M => ∀ r c : Fin 128, mat128 M r c =
      if c.val / 16 = env.pos 4 (r.val / 16) then
        bitF (bitS 16 (blkOf ![m1, m2, m3, m4, m5, m6, m7, m8] (r.val / 16) (r.val % 16)) (c.val % 16)) else 0) := by
  unfold MatrixcomM16to128
  rw [initM128_eq, C_pure_bind]
  have h0 := comInv_zero (N := 128) (Vector.replicate 2 (0 : BitVec 64)) (fW env 4)
    (blkOf (a := 16) ![m1, m2, m3, m4, m5, m6, m7, m8])
  refine Ok.bind (comStepW (N := 128) _ env (κ := 4) _ rfl (by norm_num) (by norm_num) (b := 0) (by norm_num) (by norm_num) (by norm_num)
    (by norm_num) m1 (blkOf_eq _ (by norm_num) _ rfl) h0) fun s1 h1 => ?_
  refine Ok.bind (comStepW (N := 128) _ env (κ := 4) _ rfl (by norm_num) (by norm_num) (b := 1) (by norm_num) (by norm_num) (by norm_num)
    (by norm_num) m2 (blkOf_eq _ (by norm_num) _ rfl) h1) fun s2 h2 => ?_
  refine Ok.bind (comStepW (N := 128) _ env (κ := 4) _ rfl (by norm_num) (by norm_num) (b := 2) (by norm_num) (by norm_num) (by norm_num)
    (by norm_num) m3 (blkOf_eq _ (by norm_num) _ rfl) h2) fun s3 h3 => ?_
  refine Ok.bind (comStepW (N := 128) _ env (κ := 4) _ rfl (by norm_num) (by norm_num) (b := 3) (by norm_num) (by norm_num) (by norm_num)
    (by norm_num) m4 (blkOf_eq _ (by norm_num) _ rfl) h3) fun s4 h4 => ?_
  refine Ok.bind (comStepW (N := 128) _ env (κ := 4) _ rfl (by norm_num) (by norm_num) (b := 4) (by norm_num) (by norm_num) (by norm_num)
    (by norm_num) m5 (blkOf_eq _ (by norm_num) _ rfl) h4) fun s5 h5 => ?_
  refine Ok.bind (comStepW (N := 128) _ env (κ := 4) _ rfl (by norm_num) (by norm_num) (b := 5) (by norm_num) (by norm_num) (by norm_num)
    (by norm_num) m6 (blkOf_eq _ (by norm_num) _ rfl) h5) fun s6 h6 => ?_
  refine Ok.bind (comStepW (N := 128) _ env (κ := 4) _ rfl (by norm_num) (by norm_num) (b := 6) (by norm_num) (by norm_num) (by norm_num)
    (by norm_num) m7 (blkOf_eq _ (by norm_num) _ rfl) h6) fun s7 h7 => ?_
  refine Ok.bind (comStepW (N := 128) _ env (κ := 4) _ rfl (by norm_num) (by norm_num) (b := 7) (by norm_num) (by norm_num) (by norm_num)
    (by norm_num) m8 (blkOf_eq _ (by norm_num) _ rfl) h7) fun s8 h8 => ?_
  rw [Ok.pure_iff]
  exact comMat _ _ _ env (K := 8) _ (by norm_num) (by norm_num) (cellW env (l := 2) (by norm_num) (by norm_num) (by norm_num) (by norm_num)) (bitW_zero) h8

theorem VectorcomV16to128_gen (env : Env) (v1 v2 v3 v4 v5 v6 v7 v8 : V16) (vec : V128) :
    Ok (VectorcomV16to128 env v1 v2 v3 v4 v5 v6 v7 v8 vec) (fun X => ∀ c : Fin 128, vec128 X c =
      bitF (bitS 16 (vOf ![v1, v2, v3, v4, v5, v6, v7, v8] (env.pos 4 (c.val / 16))) (c.val % 16))) := by
  unfold VectorcomV16to128
  have hc := cellW (a := 16) (κ := 4) (N := 128) env (l := 2) (by norm_num) (by norm_num) (by norm_num) (by norm_num)
  have h0 := vecInv_zero (N := 128) env 4 (bitW (l := 2)) (vOf (a := 16) ![v1, v2, v3, v4, v5, v6, v7, v8]) vec
  have h1 := vecInv_step env 4 (bitW (l := 2)) _ (by norm_num) hc (b := 0) (by norm_num) h0
  have h2 := vecInv_step env 4 (bitW (l := 2)) _ (by norm_num) hc (b := 1) (by norm_num) h1
  have h3 := vecInv_step env 4 (bitW (l := 2)) _ (by norm_num) hc (b := 2) (by norm_num) h2
  have h4 := vecInv_step env 4 (bitW (l := 2)) _ (by norm_num) hc (b := 3) (by norm_num) h3
  have h5 := vecInv_step env 4 (bitW (l := 2)) _ (by norm_num) hc (b := 4) (by norm_num) h4
  have h6 := vecInv_step env 4 (bitW (l := 2)) _ (by norm_num) hc (b := 5) (by norm_num) h5
  have h7 := vecInv_step env 4 (bitW (l := 2)) _ (by norm_num) hc (b := 6) (by norm_num) h6
  have h8 := vecInv_step env 4 (bitW (l := 2)) _ (by norm_num) hc (b := 7) (by norm_num) h7
  refine stVW_bind env (κ := 4) (b := 0) _ (by norm_num) (by norm_num) (by norm_num) (by norm_num) (by norm_num) _ _ ?_
  refine stVW_bind env (κ := 4) (b := 1) _ (by norm_num) (by norm_num) (by norm_num) (by norm_num) (by norm_num) _ _ ?_
  refine stVW_bind env (κ := 4) (b := 2) _ (by norm_num) (by norm_num) (by norm_num) (by norm_num) (by norm_num) _ _ ?_
  refine stVW_bind env (κ := 4) (b := 3) _ (by norm_num) (by norm_num) (by norm_num) (by norm_num) (by norm_num) _ _ ?_
  refine stVW_bind env (κ := 4) (b := 4) _ (by norm_num) (by norm_num) (by norm_num) (by norm_num) (by norm_num) _ _ ?_
  refine stVW_bind env (κ := 4) (b := 5) _ (by norm_num) (by norm_num) (by norm_num) (by norm_num) (by norm_num) _ _ ?_
  refine stVW_bind env (κ := 4) (b := 6) _ (by norm_num) (by norm_num) (by norm_num) (by norm_num) (by norm_num) _ _ ?_
  refine Ok.of_eq (stVW env (κ := 4) (a := 16) (b := 7) (k := 0) (q := 1) (l := 2) (by norm_num) (by norm_num) (by norm_num) (by norm_num) (by norm_num) _ _) ?_
  exact vecInv_end env 4 _ _ (K := 8) (by norm_num) (by norm_num) (by norm_num) h8

end WB
