import Verif.Proof.M4riWindow
import Mathlib.Algebra.CharP.Two

/-!
# The seven products of blocks (helper lemmas)
-/
namespace WB.m4w

open WB.cmp (Mem Mem2)

/-- One of the four blocks of `p` rows and `q` columns. -/
def qb (M : Mzd) (p q u v : Nat) : Matrix (Fin p) (Fin q) (ZMod 2) := blk M (u * p) (v * q) p q

theorem quad_rep {M : Mzd} {p q u v : Nat} (w : M.Wf) (hq : q % 64 = 0) (hu : u < 2) (hv : v < 2) (hp : 2 * p ≤ M.nrows) (hq' : 2 * q ≤ M.ncols) :
    Rep (quad M p q u v) (qb M p q u v) ∧ (quad M p q u v).Clean := by
  have h1 : u * p + p ≤ 2 * p := by rw [← Nat.succ_mul]; exact Nat.mul_le_mul_right p hu
  have h2 : v * q + q ≤ 2 * q := by rw [← Nat.succ_mul]; exact Nat.mul_le_mul_right q hv
  have h3 : v * q % 64 = 0 := by rw [Nat.mul_mod, hq]; simp
  refine ⟨window_rep w h3 (by omega) (by omega) (by omega) (by omega) (by omega) (by omega), fun i hi j ha hb => ?_⟩
  exfalso
  have ha' : v * q + q - v * q ≤ j := ha
  have hb' : j < 64 * ((v * q + q - v * q + 63) / 64) := hb
  omega

/-- The state of the result: the four blocks `X`, everything else as in `M`. -/
structure Quads (M N : Mzd) (p q : Nat) (X : Nat → Nat → Matrix (Fin p) (Fin q) (ZMod 2)) : Prop where
  sh : Sh M N
  out : ∀ a b, ¬ (a < 2 * p ∧ b < 2 * q) → N.bit a b = M.bit a b
  mat : ∀ u < 2, ∀ v < 2, qb N p q u v = X u v

/-- The blocks after one of them has been written. -/
def upd {α : Type} (X : Nat → Nat → α) (u v : Nat) (Y : α) : Nat → Nat → α := fun u' v' => if u' = u ∧ v' = v then Y else X u' v'

theorem Quads.init (M : Mzd) (p q : Nat) : Quads M M p q (qb M p q) := ⟨Sh.refl M, fun _ _ _ => rfl, fun _ _ _ _ => rfl⟩

theorem Quads.rep {M N : Mzd} {p q : Nat} {X : Nat → Nat → Matrix (Fin p) (Fin q) (ZMod 2)} (h : Quads M N p q X) (w : M.Wf) (hq : q % 64 = 0) (hp : 2 * p ≤ M.nrows) (hq' : 2 * q ≤ M.ncols)
    (u v : Nat) (hu : u < 2) (hv : v < 2) : Rep (quad N p q u v) (X u v) := by
  rw [← h.mat u hu v hv]
  exact (quad_rep (h.sh.wf w) hq hu hv (by rw [h.sh.nrows]; exact hp) (by rw [h.sh.ncols]; exact hq')).1

theorem Quads.step {M N : Mzd} {p q : Nat} {X : Nat → Nat → Matrix (Fin p) (Fin q) (ZMod 2)} (h : Quads M N p q X) (w : M.Wf) (hq : q % 64 = 0)
    (u v : Nat) (hu : u < 2) (hv : v < 2) {f : Mzd → C Mzd} {Y : Matrix (Fin p) (Fin q) (ZMod 2)}
    (hf : Ok (f (quad N p q u v)) fun W => Wr (quad N p q u v) W Y) : Ok (onQuad N p q u v f) fun N' => Quads M N' p q (upd X u v Y) := by
  have h1 : u * p + p ≤ 2 * p := by rw [← Nat.succ_mul]; exact Nat.mul_le_mul_right p hu
  have h2 : v * q + q ≤ 2 * q := by rw [← Nat.succ_mul]; exact Nat.mul_le_mul_right q hv
  have h3 : v * q % 64 = 0 := by rw [Nat.mul_mod, hq]; simp
  unfold onQuad
  refine (onWindow_spec (h.sh.wf w) h3 hf).mono ?_
  intro N' ⟨sh, hin, hout⟩
  refine ⟨h.sh.trans sh, fun a b hab => ?_, fun u' hu' v' hv' => ?_⟩
  · rw [hout a b (by omega), h.out a b hab]
  · unfold upd
    by_cases he : u' = u ∧ v' = v
    · rw [if_pos he, he.1, he.2]
      funext i j
      exact hin i j
    · rw [if_neg he, ← h.mat u' hu' v' hv']
      funext i j
      unfold qb blk
      rw [hout]
      intro ⟨g1, g2, g3, g4⟩
      refine he ⟨?_, ?_⟩
      · have hi := i.2
        have : u = 0 ∨ u = 1 := by omega
        have : u' = 0 ∨ u' = 1 := by omega
        rcases ‹u = 0 ∨ u = 1› with rfl | rfl <;> rcases ‹u' = 0 ∨ u' = 1› with rfl | rfl <;> omega
      · have hj := j.2
        have : v = 0 ∨ v = 1 := by omega
        have : v' = 0 ∨ v' = 1 := by omega
        rcases ‹v = 0 ∨ v = 1› with rfl | rfl <;> rcases ‹v' = 0 ∨ v' = 1› with rfl | rfl <;> omega

/-- `mul` writes products of these sizes. -/
def MulsTo (mul : Mzd → Mzd → Mzd → C Mzd) (r k c : Nat) : Prop := ∀ {MC MA MB : Mzd} {A : Matrix (Fin r) (Fin k) (ZMod 2)} {B : Matrix (Fin k) (Fin c) (ZMod 2)},
  MC.Wf → MC.nrows = r → MC.ncols = c → Rep MA A → MA.Clean → Rep MB B → MB.Clean → Ok (mul MC MA MB) fun N => Wr MC N (A * B)

theorem quad_wf {M : Mzd} {p q u v : Nat} (w : M.Wf) (hq : q % 64 = 0) (hu : u < 2) (hv : v < 2) (hp : 2 * p ≤ M.nrows) (hq' : 2 * q ≤ M.ncols) :
    (quad M p q u v).Wf ∧ (quad M p q u v).nrows = p ∧ (quad M p q u v).ncols = q := by
  obtain ⟨h, -⟩ := quad_rep (u := u) (v := v) w hq hu hv hp hq'
  exact ⟨h.wf, h.nrows, h.ncols⟩

theorem mat_two {r c : Nat} (X : Matrix (Fin r) (Fin c) (ZMod 2)) : X + X = 0 := by
  funext i j
  exact CharTwo.add_self_eq_zero (X i j)

theorem nsmul_two {r c : Nat} (X : Matrix (Fin r) (Fin c) (ZMod 2)) : 2 • X = 0 := by rw [two_nsmul, mat_two]

theorem zsmul_two {r c : Nat} (X : Matrix (Fin r) (Fin c) (ZMod 2)) : (2 : ℤ) • X = 0 := by rw [two_zsmul, mat_two]

theorem nsmul_three {r c : Nat} (X : Matrix (Fin r) (Fin c) (ZMod 2)) : 3 • X = X := by rw [succ_nsmul, nsmul_two, zero_add]

theorem zsmul_three {r c : Nat} (X : Matrix (Fin r) (Fin c) (ZMod 2)) : (3 : ℤ) • X = X := by
  rw [show (3 : ℤ) = 2 + 1 from rfl, add_zsmul, zsmul_two, zero_add, one_zsmul]

section

variable {p k q : Nat} (A0 A1 A2 A3 : Matrix (Fin p) (Fin k) (ZMod 2)) (B0 B1 B2 B3 : Matrix (Fin k) (Fin q) (ZMod 2))

theorem alg12 : (A3 + A2 + A1) * (B3 + B2 + B1) + A1 * B2 + ((A3 + A2 + A1 + A0) * B1 + (A3 + A2) * (B3 + B2)) = A0 * B1 + A1 * B3 := by
  simp only [Matrix.mul_add, Matrix.add_mul]
  abel_nf
  simp only [zsmul_two, zsmul_three, nsmul_two, nsmul_three, add_zero, zero_add]

theorem alg21 : (A3 + A1) * (B3 + B1) + ((A3 + A2 + A1) * (B3 + B2 + B1) + A1 * B2) + A2 * (B3 + B2 + B1 + B0) = A2 * B0 + A3 * B2 := by
  simp only [Matrix.mul_add, Matrix.add_mul]
  abel_nf
  simp only [zsmul_two, zsmul_three, nsmul_two, nsmul_three, add_zero, zero_add]

theorem alg22 : (A3 + A2) * (B3 + B2) + ((A3 + A1) * (B3 + B1) + ((A3 + A2 + A1) * (B3 + B2 + B1) + A1 * B2)) = A2 * B1 + A3 * B3 := by
  simp only [Matrix.mul_add, Matrix.add_mul]
  abel_nf
  simp only [zsmul_two, zsmul_three, nsmul_two, nsmul_three, add_zero, zero_add]

end

/-- A matrix of its own, without unused bits. -/
def Own (W : Mzd) (r c : Nat) : Prop := W.Wf ∧ W.nrows = r ∧ W.ncols = c ∧ W.Clean

theorem Own.init (r c : Nat) : Own (mzd_init r c) r c := ⟨init_wf r c, rfl, rfl, init_clean r c⟩

theorem Own.add {r c : Nat} {W FA FB : Mzd} {P Q : Matrix (Fin r) (Fin c) (ZMod 2)} (h : Own W r c) (r1 : Rep FA P) (r2 : Rep FB Q) :
    Ok (_mzd_add W FA FB) fun N => Own N r c ∧ Rep N (P + Q) := by
  obtain ⟨w1, w2, w3, w4⟩ := h
  refine (add_wr w1 w2 w3 r1 r2).mono fun N h => ?_
  have := h.rep w1 w2 w3
  exact ⟨⟨this.wf, this.nrows, this.ncols, h.clean w3 w4⟩, this⟩

theorem Own.mul {r k c : Nat} {f : Mzd → Mzd → Mzd → C Mzd} (hf : MulsTo f r k c) {W FA FB : Mzd} {P : Matrix (Fin r) (Fin k) (ZMod 2)} {Q : Matrix (Fin k) (Fin c) (ZMod 2)}
    (h : Own W r c) (r1 : Rep FA P) (k1 : FA.Clean) (r2 : Rep FB Q) (k2 : FB.Clean) : Ok (f W FA FB) fun N => Own N r c ∧ Rep N (P * Q) := by
  obtain ⟨w1, w2, w3, w4⟩ := h
  refine (hf w1 w2 w3 r1 k1 r2 k2).mono fun N h => ?_
  have := h.rep w1 w2 w3
  exact ⟨⟨this.wf, this.nrows, this.ncols, h.clean w3 w4⟩, this⟩

/-- `f` adds products of these sizes. -/
def AddsTo (f : Mzd → Mzd → Mzd → C Mzd) (r k c : Nat) : Prop := ∀ {MC MA MB : Mzd} {X : Matrix (Fin r) (Fin c) (ZMod 2)} {A : Matrix (Fin r) (Fin k) (ZMod 2)}
  {B : Matrix (Fin k) (Fin c) (ZMod 2)}, Rep MC X → Rep MA A → MA.Clean → Rep MB B → MB.Clean → Ok (f MC MA MB) fun N => Wr MC N (X + A * B)

theorem Own.addmul {r k c : Nat} {f : Mzd → Mzd → Mzd → C Mzd} (hf : AddsTo f r k c) {W FA FB : Mzd} {X : Matrix (Fin r) (Fin c) (ZMod 2)} {P : Matrix (Fin r) (Fin k) (ZMod 2)}
    {Q : Matrix (Fin k) (Fin c) (ZMod 2)} (h : Own W r c) (hX : Rep W X) (r1 : Rep FA P) (k1 : FA.Clean) (r2 : Rep FB Q) (k2 : FB.Clean) :
    Ok (f W FA FB) fun N => Own N r c ∧ Rep N (X + P * Q) := by
  obtain ⟨w1, w2, w3, w4⟩ := h
  refine (hf hX r1 k1 r2 k2).mono fun N h => ?_
  have := h.rep w1 w2 w3
  exact ⟨⟨this.wf, this.nrows, this.ncols, h.clean w3 w4⟩, this⟩

/-- What is needed to work on the four blocks of a matrix. -/
structure Room (M : Mzd) (p q : Nat) : Prop where
  wf : M.Wf
  mod : q % 64 = 0
  nr : 2 * p ≤ M.nrows
  nc : 2 * q ≤ M.ncols

section

variable {M N : Mzd} {p k q : Nat} {X : Nat → Nat → Matrix (Fin p) (Fin q) (ZMod 2)}

theorem Quads.at (h : Quads M N p q X) (w : Room M p q) (u v : Nat) (hu : u < 2) (hv : v < 2) : Rep (quad N p q u v) (X u v) := h.rep w.wf w.mod w.nr w.nc u v hu hv

theorem Quads.mul (h : Quads M N p q X) (w : Room M p q) {f : Mzd → Mzd → Mzd → C Mzd} (hf : MulsTo f p k q) (u v : Nat) (hu : u < 2) (hv : v < 2) {FA FB : Mzd}
    {P : Matrix (Fin p) (Fin k) (ZMod 2)} {Q : Matrix (Fin k) (Fin q) (ZMod 2)} (r1 : Rep FA P) (k1 : FA.Clean) (r2 : Rep FB Q) (k2 : FB.Clean) :
    Ok (onQuad N p q u v fun W => f W FA FB) fun N' => Quads M N' p q (upd X u v (P * Q)) :=
  have r := h.at w u v hu hv
  h.step w.wf w.mod u v hu hv (hf r.wf r.nrows r.ncols r1 k1 r2 k2)

theorem Quads.addmul (h : Quads M N p q X) (w : Room M p q) {f : Mzd → Mzd → Mzd → C Mzd} (hf : AddsTo f p k q) (u v : Nat) (hu : u < 2) (hv : v < 2) {FA FB : Mzd}
    {P : Matrix (Fin p) (Fin k) (ZMod 2)} {Q : Matrix (Fin k) (Fin q) (ZMod 2)} (r1 : Rep FA P) (k1 : FA.Clean) (r2 : Rep FB Q) (k2 : FB.Clean) :
    Ok (onQuad N p q u v fun W => f W FA FB) fun N' => Quads M N' p q (upd X u v (X u v + P * Q)) :=
  h.step w.wf w.mod u v hu hv (hf (h.at w u v hu hv) r1 k1 r2 k2)

theorem Quads.add (h : Quads M N p q X) (w : Room M p q) (u v : Nat) (hu : u < 2) (hv : v < 2) {f : Mzd → C Mzd} (FA FB : Mzd) {P Q : Matrix (Fin p) (Fin q) (ZMod 2)}
    (hf : f (quad N p q u v) = _mzd_add (quad N p q u v) FA FB) (r1 : Rep FA P) (r2 : Rep FB Q) : Ok (onQuad N p q u v f) fun N' => Quads M N' p q (upd X u v (P + Q)) :=
  have r := h.at w u v hu hv
  h.step w.wf w.mod u v hu hv (by rw [hf]; exact add_wr r.wf r.nrows r.ncols r1 r2)

end

theorem blocks_spec {mul : Nat → Mzd → Mzd → Mzd → C Mzd} {p k q : Nat} (hmul : ∀ i, MulsTo (mul i) p k q) {MC MA MB : Mzd}
    (wC : Room MC p q) (wA : Room MA p k) (wB : Room MB k q) :
    Ok (mulBlocks mul p k q MC MA MB) fun N => Quads MC N p q fun u v => qb MA p k u 0 * qb MB k q 0 v + qb MA p k u 1 * qb MB k q 1 v := by
  have rA : ∀ u v, u < 2 → v < 2 → Rep (quad MA p k u v) (qb MA p k u v) ∧ (quad MA p k u v).Clean := fun u v hu hv => quad_rep wA.wf wA.mod hu hv wA.nr wA.nc
  have rB : ∀ u v, u < 2 → v < 2 → Rep (quad MB k q u v) (qb MB k q u v) ∧ (quad MB k q u v).Clean := fun u v hu hv => quad_rep wB.wf wB.mod hu hv wB.nr wB.nc
  generalize qb MA p k = A at rA
  generalize qb MB k q = B at rB
  have l0 : (0 : Nat) < 2 := by omega
  have l1 : (1 : Nat) < 2 := by omega
  unfold mulBlocks
  refine Ok.bind ((Own.init k q).add (rB 1 1 l1 l1).1 (rB 0 1 l0 l1).1) fun T1 t1 => ?_
  refine Ok.bind ((Own.init p k).add (rA 1 1 l1 l1).1 (rA 0 1 l0 l1).1) fun S1 s1 => ?_
  refine Ok.bind ((Quads.init MC p q).mul wC (hmul 0) 1 0 l1 l0 s1.2 s1.1.2.2.2 t1.2 t1.1.2.2.2) fun C1 h1 => ?_
  refine Ok.bind (s1.1.add (rA 1 1 l1 l1).1 (rA 1 0 l1 l0).1) fun S2 s2 => ?_
  refine Ok.bind (t1.1.add (rB 1 1 l1 l1).1 (rB 1 0 l1 l0).1) fun T2 t2 => ?_
  refine Ok.bind (h1.mul wC (hmul 1) 1 1 l1 l1 s2.2 s2.1.2.2.2 t2.2 t2.1.2.2.2) fun C2 h2 => ?_
  refine Ok.bind (t2.1.add t2.2 (rB 0 1 l0 l1).1) fun T3 t3 => ?_
  refine Ok.bind (s2.1.add s2.2 (rA 0 1 l0 l1).1) fun S3 s3 => ?_
  refine Ok.bind (h2.mul wC (hmul 2) 0 0 l0 l0 s3.2 s3.1.2.2.2 t3.2 t3.1.2.2.2) fun C3 h3 => ?_
  refine Ok.bind (s3.1.add s3.2 (rA 0 0 l0 l0).1) fun S4 s4 => ?_
  refine Ok.bind (h3.mul wC (hmul 3) 0 1 l0 l1 s4.2 s4.1.2.2.2 (rB 0 1 l0 l1).1 (rB 0 1 l0 l1).2) fun C4 h4 => ?_
  refine Ok.bind (h4.add wC 0 1 l0 l1 _ _ rfl (h4.at wC 0 1 l0 l1) (h4.at wC 1 1 l1 l1)) fun C5 h5 => ?_
  refine Ok.bind ((Own.init p q).mul (hmul 4) (rA 0 1 l0 l1).1 (rA 0 1 l0 l1).2 (rB 1 0 l1 l0).1 (rB 1 0 l1 l0).2) fun U ⟨_, u⟩ => ?_
  refine Ok.bind (h5.add wC 0 0 l0 l0 _ U rfl (h5.at wC 0 0 l0 l0) u) fun C6 h6 => ?_
  refine Ok.bind (h6.add wC 0 1 l0 l1 _ _ rfl (h6.at wC 0 0 l0 l0) (h6.at wC 0 1 l0 l1)) fun C7 h7 => ?_
  refine Ok.bind (h7.add wC 0 0 l0 l0 _ _ rfl (h7.at wC 1 0 l1 l0) (h7.at wC 0 0 l0 l0)) fun C8 h8 => ?_
  refine Ok.bind (t3.1.add t3.2 (rB 0 0 l0 l0).1) fun T4 t4 => ?_
  refine Ok.bind (h8.mul wC (hmul 5) 1 0 l1 l0 (rA 1 0 l1 l0).1 (rA 1 0 l1 l0).2 t4.2 t4.1.2.2.2) fun C9 h9 => ?_
  refine Ok.bind (h9.add wC 1 0 l1 l0 _ _ rfl (h9.at wC 0 0 l0 l0) (h9.at wC 1 0 l1 l0)) fun C10 h10 => ?_
  refine Ok.bind (h10.add wC 1 1 l1 l1 _ _ rfl (h10.at wC 1 1 l1 l1) (h10.at wC 0 0 l0 l0)) fun C11 h11 => ?_
  refine Ok.bind (h11.mul wC (hmul 6) 0 0 l0 l0 (rA 0 0 l0 l0).1 (rA 0 0 l0 l0).2 (rB 0 0 l0 l0).1 (rB 0 0 l0 l0).2) fun C12 h12 => ?_
  refine (h12.add wC 0 0 l0 l0 _ U rfl (h12.at wC 0 0 l0 l0) u).mono fun N h => ?_
  refine ⟨h.sh, h.out, fun u hu v hv => ?_⟩
  rw [h.mat u hu v hv]
  have hu' : u = 0 ∨ u = 1 := by omega
  have hv' : v = 0 ∨ v = 1 := by omega
  rcases hu' with rfl | rfl <;> rcases hv' with rfl | rfl
  · rfl
  · exact alg12 _ _ _ _ _ _ _
  · exact alg21 _ _ _ _ _ _ _
  · exact alg22 _ _ _ _ _ _

/-- `f` writes squares of this size. -/
def SqrsTo (f : Mzd → Mzd → C Mzd) (r : Nat) : Prop := ∀ {MC MA : Mzd} {A : Matrix (Fin r) (Fin r) (ZMod 2)}, MC.Wf → MC.nrows = r → MC.ncols = r → Rep MA A → MA.Clean →
  Ok (f MC MA) fun N => Wr MC N (A * A)

/-- `f` adds squares of this size. -/
def AddSqrsTo (f : Mzd → Mzd → C Mzd) (r : Nat) : Prop := ∀ {MC MA : Mzd} {X A : Matrix (Fin r) (Fin r) (ZMod 2)}, Rep MC X → Rep MA A → MA.Clean →
  Ok (f MC MA) fun N => Wr MC N (X + A * A)

section

variable {M N : Mzd} {p : Nat} {X : Nat → Nat → Matrix (Fin p) (Fin p) (ZMod 2)}

theorem Quads.sqr (h : Quads M N p p X) (w : Room M p p) {f : Mzd → Mzd → C Mzd} (hf : SqrsTo f p) (u v : Nat) (hu : u < 2) (hv : v < 2) {FA : Mzd}
    {P : Matrix (Fin p) (Fin p) (ZMod 2)} (r1 : Rep FA P) (k1 : FA.Clean) : Ok (onQuad N p p u v fun W => f W FA) fun N' => Quads M N' p p (upd X u v (P * P)) :=
  have r := h.at w u v hu hv
  h.step w.wf w.mod u v hu hv (hf r.wf r.nrows r.ncols r1 k1)

theorem Quads.addsqr (h : Quads M N p p X) (w : Room M p p) {f : Mzd → Mzd → C Mzd} (hf : AddSqrsTo f p) (u v : Nat) (hu : u < 2) (hv : v < 2) {FA : Mzd}
    {P : Matrix (Fin p) (Fin p) (ZMod 2)} (r1 : Rep FA P) (k1 : FA.Clean) : Ok (onQuad N p p u v fun W => f W FA) fun N' => Quads M N' p p (upd X u v (X u v + P * P)) :=
  h.step w.wf w.mod u v hu hv (hf (h.at w u v hu hv) r1 k1)

theorem Own.sqr {f : Mzd → Mzd → C Mzd} (hf : SqrsTo f p) {W FA : Mzd} {P : Matrix (Fin p) (Fin p) (ZMod 2)} (h : Own W p p) (r1 : Rep FA P) (k1 : FA.Clean) :
    Ok (f W FA) fun N => Own N p p ∧ Rep N (P * P) := by
  obtain ⟨w1, w2, w3, w4⟩ := h
  refine (hf w1 w2 w3 r1 k1).mono fun N h => ?_
  have := h.rep w1 w2 w3
  exact ⟨⟨this.wf, this.nrows, this.ncols, h.clean w3 w4⟩, this⟩

theorem Own.addsqr {f : Mzd → Mzd → C Mzd} (hf : AddSqrsTo f p) {W FA : Mzd} {X P : Matrix (Fin p) (Fin p) (ZMod 2)} (h : Own W p p) (hX : Rep W X) (r1 : Rep FA P) (k1 : FA.Clean) :
    Ok (f W FA) fun N => Own N p p ∧ Rep N (X + P * P) := by
  obtain ⟨w1, w2, w3, w4⟩ := h
  refine (hf hX r1 k1).mono fun N h => ?_
  have := h.rep w1 w2 w3
  exact ⟨⟨this.wf, this.nrows, this.ncols, h.clean w3 w4⟩, this⟩

end

theorem sqr_blocks_spec {mul : Nat → Mzd → Mzd → Mzd → C Mzd} {sqr : Nat → Mzd → Mzd → C Mzd} {p : Nat} (hmul : ∀ i, MulsTo (mul i) p p p)
    (hsqr : ∀ i, SqrsTo (sqr i) p) {MC MA : Mzd} (wC : Room MC p p) (wA : Room MA p p) :
    Ok (sqrBlocks mul sqr p MC MA) fun N => Quads MC N p p fun u v => qb MA p p u 0 * qb MA p p 0 v + qb MA p p u 1 * qb MA p p 1 v := by
  have rA : ∀ u v, u < 2 → v < 2 → Rep (quad MA p p u v) (qb MA p p u v) ∧ (quad MA p p u v).Clean := fun u v hu hv => quad_rep wA.wf wA.mod hu hv wA.nr wA.nc
  generalize qb MA p p = A at rA
  have l0 : (0 : Nat) < 2 := by omega
  have l1 : (1 : Nat) < 2 := by omega
  unfold sqrBlocks
  refine Ok.bind ((Own.init p p).add (rA 1 1 l1 l1).1 (rA 0 1 l0 l1).1) fun S1 s1 => ?_
  refine Ok.bind ((Quads.init MC p p).sqr wC (hsqr 0) 1 0 l1 l0 s1.2 s1.1.2.2.2) fun C1 h1 => ?_
  refine Ok.bind (s1.1.add (rA 1 1 l1 l1).1 (rA 1 0 l1 l0).1) fun S2 s2 => ?_
  refine Ok.bind (h1.sqr wC (hsqr 1) 1 1 l1 l1 s2.2 s2.1.2.2.2) fun C2 h2 => ?_
  refine Ok.bind (s2.1.add s2.2 (rA 0 1 l0 l1).1) fun S3 s3 => ?_
  refine Ok.bind (h2.sqr wC (hsqr 2) 0 0 l0 l0 s3.2 s3.1.2.2.2) fun C3 h3 => ?_
  refine Ok.bind (s3.1.add s3.2 (rA 0 0 l0 l0).1) fun S4 s4 => ?_
  refine Ok.bind (h3.mul wC (hmul 3) 0 1 l0 l1 s4.2 s4.1.2.2.2 (rA 0 1 l0 l1).1 (rA 0 1 l0 l1).2) fun C4 h4 => ?_
  refine Ok.bind (h4.add wC 0 1 l0 l1 _ _ rfl (h4.at wC 0 1 l0 l1) (h4.at wC 1 1 l1 l1)) fun C5 h5 => ?_
  refine Ok.bind ((Own.init p p).mul (hmul 4) (rA 0 1 l0 l1).1 (rA 0 1 l0 l1).2 (rA 1 0 l1 l0).1 (rA 1 0 l1 l0).2) fun U ⟨_, u⟩ => ?_
  refine Ok.bind (h5.add wC 0 0 l0 l0 _ U rfl (h5.at wC 0 0 l0 l0) u) fun C6 h6 => ?_
  refine Ok.bind (h6.add wC 0 1 l0 l1 _ _ rfl (h6.at wC 0 0 l0 l0) (h6.at wC 0 1 l0 l1)) fun C7 h7 => ?_
  refine Ok.bind (h7.add wC 0 0 l0 l0 _ _ rfl (h7.at wC 1 0 l1 l0) (h7.at wC 0 0 l0 l0)) fun C8 h8 => ?_
  refine Ok.bind (h8.mul wC (hmul 5) 1 0 l1 l0 (rA 1 0 l1 l0).1 (rA 1 0 l1 l0).2 s4.2 s4.1.2.2.2) fun C9 h9 => ?_
  refine Ok.bind (h9.add wC 1 0 l1 l0 _ _ rfl (h9.at wC 0 0 l0 l0) (h9.at wC 1 0 l1 l0)) fun C10 h10 => ?_
  refine Ok.bind (h10.add wC 1 1 l1 l1 _ _ rfl (h10.at wC 1 1 l1 l1) (h10.at wC 0 0 l0 l0)) fun C11 h11 => ?_
  refine Ok.bind (h11.sqr wC (hsqr 6) 0 0 l0 l0 (rA 0 0 l0 l0).1 (rA 0 0 l0 l0).2) fun C12 h12 => ?_
  refine (h12.add wC 0 0 l0 l0 _ U rfl (h12.at wC 0 0 l0 l0) u).mono fun N h => ?_
  refine ⟨h.sh, h.out, fun u hu v hv => ?_⟩
  rw [h.mat u hu v hv]
  have hu' : u = 0 ∨ u = 1 := by omega
  have hv' : v = 0 ∨ v = 1 := by omega
  rcases hu' with rfl | rfl <;> rcases hv' with rfl | rfl
  · rfl
  · exact alg12 _ _ _ _ _ _ _
  · exact alg21 _ _ _ _ _ _ _
  · exact alg22 _ _ _ _ _ _

section

variable {p k q : Nat} (A0 A1 A2 A3 : Matrix (Fin p) (Fin k) (ZMod 2)) (B0 B1 B2 B3 : Matrix (Fin k) (Fin q) (ZMod 2)) (X : Matrix (Fin p) (Fin q) (ZMod 2))

theorem addalg11 : A1 * B2 + X + A0 * B0 = X + (A0 * B0 + A1 * B2) := by abel

theorem addalg12 : (A3 + A2) * (B3 + B2) + X + (A1 * B2 + (A3 + A2 + A1) * (B3 + B2 + B1)) + (A0 + (A3 + A2 + A1)) * B1 = X + (A0 * B1 + A1 * B3) := by
  simp only [Matrix.mul_add, Matrix.add_mul]
  abel_nf
  simp only [zsmul_two, zsmul_three, nsmul_two, nsmul_three, add_zero, zero_add]

theorem addalg21 : X + A2 * (B0 + (B3 + B2 + B1)) + (A1 * B2 + (A3 + A2 + A1) * (B3 + B2 + B1) + (A3 + A1) * (B3 + B1)) = X + (A2 * B0 + A3 * B2) := by
  simp only [Matrix.mul_add, Matrix.add_mul]
  abel_nf
  simp only [zsmul_two, zsmul_three, nsmul_two, nsmul_three, add_zero, zero_add]

theorem addalg22 : (A3 + A2) * (B3 + B2) + X + (A1 * B2 + (A3 + A2 + A1) * (B3 + B2 + B1) + (A3 + A1) * (B3 + B1)) = X + (A2 * B1 + A3 * B3) := by
  simp only [Matrix.mul_add, Matrix.add_mul]
  abel_nf
  simp only [zsmul_two, zsmul_three, nsmul_two, nsmul_three, add_zero, zero_add]

end

theorem addmul_blocks_spec {mul addmul : Nat → Bool → Mzd → Mzd → Mzd → C Mzd} {p k q : Nat} (hmul : ∀ i w, MulsTo (mul i w) p k q) (hadd : ∀ i w, AddsTo (addmul i w) p k q)
    {MC MA MB : Mzd} (wC : Room MC p q) (wA : Room MA p k) (wB : Room MB k q) :
    Ok (addmulBlocks mul addmul p k q MC MA MB) fun N => Quads MC N p q fun u v => qb MC p q u v + (qb MA p k u 0 * qb MB k q 0 v + qb MA p k u 1 * qb MB k q 1 v) := by
  have rA : ∀ u v, u < 2 → v < 2 → Rep (quad MA p k u v) (qb MA p k u v) ∧ (quad MA p k u v).Clean := fun u v hu hv => quad_rep wA.wf wA.mod hu hv wA.nr wA.nc
  have rB : ∀ u v, u < 2 → v < 2 → Rep (quad MB k q u v) (qb MB k q u v) ∧ (quad MB k q u v).Clean := fun u v hu hv => quad_rep wB.wf wB.mod hu hv wB.nr wB.nc
  have h0 := Quads.init MC p q
  generalize qb MA p k = A at rA
  generalize qb MB k q = B at rB
  generalize qb MC p q = X at h0
  have l0 : (0 : Nat) < 2 := by omega
  have l1 : (1 : Nat) < 2 := by omega
  unfold addmulBlocks
  refine Ok.bind ((Own.init p k).add (rA 1 1 l1 l1).1 (rA 1 0 l1 l0).1) fun S1 s1 => ?_
  refine Ok.bind ((Own.init k q).add (rB 1 1 l1 l1).1 (rB 1 0 l1 l0).1) fun T1 t1 => ?_
  refine Ok.bind ((Own.init p q).mul (hmul 0 false) s1.2 s1.1.2.2.2 t1.2 t1.1.2.2.2) fun U1 u1 => ?_
  refine Ok.bind (h0.add wC 1 1 l1 l1 U1 _ rfl u1.2 (h0.at wC 1 1 l1 l1)) fun C1 h1 => ?_
  refine Ok.bind (h1.add wC 0 1 l0 l1 U1 _ rfl u1.2 (h1.at wC 0 1 l0 l1)) fun C2 h2 => ?_
  refine Ok.bind (u1.1.mul (hmul 1 true) (rA 0 1 l0 l1).1 (rA 0 1 l0 l1).2 (rB 1 0 l1 l0).1 (rB 1 0 l1 l0).2) fun U2 u2 => ?_
  refine Ok.bind (h2.add wC 0 0 l0 l0 U2 _ rfl u2.2 (h2.at wC 0 0 l0 l0)) fun C3 h3 => ?_
  refine Ok.bind (h3.addmul wC (hadd 2 true) 0 0 l0 l0 (rA 0 0 l0 l0).1 (rA 0 0 l0 l0).2 (rB 0 0 l0 l0).1 (rB 0 0 l0 l0).2) fun C4 h4 => ?_
  refine Ok.bind (s1.1.add s1.2 (rA 0 1 l0 l1).1) fun S2 s2 => ?_
  refine Ok.bind (t1.1.add t1.2 (rB 0 1 l0 l1).1) fun T2 t2 => ?_
  refine Ok.bind (u2.1.addmul (hadd 3 false) u2.2 s2.2 s2.1.2.2.2 t2.2 t2.1.2.2.2) fun U3 u3 => ?_
  refine Ok.bind (h4.add wC 0 1 l0 l1 _ U3 rfl (h4.at wC 0 1 l0 l1) u3.2) fun C5 h5 => ?_
  refine Ok.bind (s2.1.add (rA 0 0 l0 l0).1 s2.2) fun S3 s3 => ?_
  refine Ok.bind (h5.addmul wC (hadd 4 true) 0 1 l0 l1 s3.2 s3.1.2.2.2 (rB 0 1 l0 l1).1 (rB 0 1 l0 l1).2) fun C6 h6 => ?_
  refine Ok.bind (t2.1.add (rB 0 0 l0 l0).1 t2.2) fun T3 t3 => ?_
  refine Ok.bind (h6.addmul wC (hadd 5 true) 1 0 l1 l0 (rA 1 0 l1 l0).1 (rA 1 0 l1 l0).2 t3.2 t3.1.2.2.2) fun C7 h7 => ?_
  refine Ok.bind (s3.1.add (rA 1 1 l1 l1).1 (rA 0 1 l0 l1).1) fun S4 s4 => ?_
  refine Ok.bind (t3.1.add (rB 1 1 l1 l1).1 (rB 0 1 l0 l1).1) fun T4 t4 => ?_
  refine Ok.bind (u3.1.addmul (hadd 6 false) u3.2 s4.2 s4.1.2.2.2 t4.2 t4.1.2.2.2) fun U4 u4 => ?_
  refine Ok.bind (h7.add wC 1 0 l1 l0 _ U4 rfl (h7.at wC 1 0 l1 l0) u4.2) fun C8 h8 => ?_
  refine (h8.add wC 1 1 l1 l1 _ U4 rfl (h8.at wC 1 1 l1 l1) u4.2).mono fun N h => ?_
  refine ⟨h.sh, h.out, fun u hu v hv => ?_⟩
  rw [h.mat u hu v hv]
  have hu' : u = 0 ∨ u = 1 := by omega
  have hv' : v = 0 ∨ v = 1 := by omega
  rcases hu' with rfl | rfl <;> rcases hv' with rfl | rfl
  · exact addalg11 _ _ _ _ _
  · exact addalg12 _ _ _ _ _ _ _ _
  · exact addalg21 _ _ _ _ _ _ _ _
  · exact addalg22 _ _ _ _ _ _ _

theorem addsqr_blocks_spec {mul addmul : Nat → Bool → Mzd → Mzd → Mzd → C Mzd} {sqr addsqr : Nat → Bool → Mzd → Mzd → C Mzd} {p : Nat} (hmul : ∀ i w, MulsTo (mul i w) p p p)
    (hadd : ∀ i w, AddsTo (addmul i w) p p p) (hsqr : ∀ i w, SqrsTo (sqr i w) p) (hadds : ∀ i w, AddSqrsTo (addsqr i w) p) {MC MA : Mzd} (wC : Room MC p p) (wA : Room MA p p) :
    Ok (addsqrBlocks mul addmul sqr addsqr p MC MA) fun N => Quads MC N p p fun u v => qb MC p p u v + (qb MA p p u 0 * qb MA p p 0 v + qb MA p p u 1 * qb MA p p 1 v) := by
  have rA : ∀ u v, u < 2 → v < 2 → Rep (quad MA p p u v) (qb MA p p u v) ∧ (quad MA p p u v).Clean := fun u v hu hv => quad_rep wA.wf wA.mod hu hv wA.nr wA.nc
  have h0 := Quads.init MC p p
  generalize qb MA p p = A at rA
  generalize qb MC p p = X at h0
  have l0 : (0 : Nat) < 2 := by omega
  have l1 : (1 : Nat) < 2 := by omega
  unfold addsqrBlocks
  refine Ok.bind ((Own.init p p).add (rA 1 1 l1 l1).1 (rA 1 0 l1 l0).1) fun S1 s1 => ?_
  refine Ok.bind ((Own.init p p).sqr (hsqr 0 false) s1.2 s1.1.2.2.2) fun U1 u1 => ?_
  refine Ok.bind (h0.add wC 1 1 l1 l1 U1 _ rfl u1.2 (h0.at wC 1 1 l1 l1)) fun C1 h1 => ?_
  refine Ok.bind (h1.add wC 0 1 l0 l1 U1 _ rfl u1.2 (h1.at wC 0 1 l0 l1)) fun C2 h2 => ?_
  refine Ok.bind (u1.1.mul (hmul 1 true) (rA 0 1 l0 l1).1 (rA 0 1 l0 l1).2 (rA 1 0 l1 l0).1 (rA 1 0 l1 l0).2) fun U2 u2 => ?_
  refine Ok.bind (h2.add wC 0 0 l0 l0 U2 _ rfl u2.2 (h2.at wC 0 0 l0 l0)) fun C3 h3 => ?_
  refine Ok.bind (h3.addsqr wC (hadds 2 true) 0 0 l0 l0 (rA 0 0 l0 l0).1 (rA 0 0 l0 l0).2) fun C4 h4 => ?_
  refine Ok.bind (s1.1.add s1.2 (rA 0 1 l0 l1).1) fun S2 s2 => ?_
  refine Ok.bind (u2.1.addsqr (hadds 3 false) u2.2 s2.2 s2.1.2.2.2) fun U3 u3 => ?_
  refine Ok.bind (h4.add wC 0 1 l0 l1 _ U3 rfl (h4.at wC 0 1 l0 l1) u3.2) fun C5 h5 => ?_
  refine Ok.bind (s2.1.add (rA 0 0 l0 l0).1 s2.2) fun S3 s3 => ?_
  refine Ok.bind (h5.addmul wC (hadd 4 true) 0 1 l0 l1 s3.2 s3.1.2.2.2 (rA 0 1 l0 l1).1 (rA 0 1 l0 l1).2) fun C6 h6 => ?_
  refine Ok.bind (h6.addmul wC (hadd 5 true) 1 0 l1 l0 (rA 1 0 l1 l0).1 (rA 1 0 l1 l0).2 s3.2 s3.1.2.2.2) fun C7 h7 => ?_
  refine Ok.bind (s3.1.add (rA 1 1 l1 l1).1 (rA 0 1 l0 l1).1) fun S4 s4 => ?_
  refine Ok.bind (u3.1.addsqr (hadds 6 false) u3.2 s4.2 s4.1.2.2.2) fun U4 u4 => ?_
  refine Ok.bind (h7.add wC 1 0 l1 l0 _ U4 rfl (h7.at wC 1 0 l1 l0) u4.2) fun C8 h8 => ?_
  refine (h8.add wC 1 1 l1 l1 _ U4 rfl (h8.at wC 1 1 l1 l1) u4.2).mono fun N h => ?_
  refine ⟨h.sh, h.out, fun u hu v hv => ?_⟩
  rw [h.mat u hu v hv]
  have hu' : u = 0 ∨ u = 1 := by omega
  have hv' : v = 0 ∨ v = 1 := by omega
  rcases hu' with rfl | rfl <;> rcases hv' with rfl | rfl
  · exact addalg11 _ _ _ _ _
  · exact addalg12 _ _ _ _ _ _ _ _
  · exact addalg21 _ _ _ _ _ _ _ _
  · exact addalg22 _ _ _ _ _ _ _

end WB.m4w
