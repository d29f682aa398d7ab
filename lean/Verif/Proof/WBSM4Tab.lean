import Verif.Model.WBSM4
import Verif.Proof.AffFun
import Verif.Proof.SM4Modes

/-!
# Tables of the white-box SM4 demo (helper lemmas)
-/
namespace WB

instance : Inhabited Aff32 := ⟨⟨default, default⟩⟩
instance : Inhabited Aff8 := ⟨⟨default, default⟩⟩

/-! ## Arrays -/

section
variable {α : Type} [Inhabited α]

theorem rd_get {n : Nat} (a : Vector α n) {i : Nat} (h : i < n) : rd a i = .ok a[i]! := by
  rw [rd_ok _ _ h, getElem!_pos a i h]

theorem wr_get {n : Nat} (a : Vector α n) {i : Nat} (h : i < n) (v : α) :
    ∃ a', wr a i v = .ok a' ∧ ∀ x, x < n → a'[x]! = if x = i then v else a[x]! := by
  refine ⟨_, wr_ok _ _ _ h, ?_⟩
  intro x hx
  rw [getElem!_pos _ x hx, getElem!_pos _ x hx, Vector.getElem_set]
  by_cases e : i = x
  · rw [if_pos e, if_pos e.symm]
  · rw [if_neg e, if_neg (Ne.symm e)]

theorem rd2_get {n m : Nat} (a : Vector (Vector α m) n) {i k : Nat} (h : i < n) (hk : k < m) :
    rd2 a i k = .ok ((a[i]!)[k]!) := by
  unfold rd2
  rw [rd_get a h, C_pure_bind, rd_get _ hk]

theorem wr2_get {n m : Nat} (a : Vector (Vector α m) n) {i k : Nat} (h : i < n) (hk : k < m) (v : α) :
    ∃ a', wr2 a i k v = .ok a' ∧ ∀ x y, x < n → y < m → (a'[x]!)[y]! = if x = i ∧ y = k then v else (a[x]!)[y]! := by
  unfold wr2
  rw [rd_get a h, C_pure_bind]
  obtain ⟨b, hb, hb'⟩ := wr_get a[i]! hk v
  rw [hb, C_pure_bind]
  obtain ⟨c, hc, hc'⟩ := wr_get a h b
  refine ⟨c, hc, ?_⟩
  intro x y hx hy
  rw [hc' x hx]
  by_cases e : x = i
  · subst e
    rw [if_pos rfl, hb' y hy]
    by_cases e' : y = k
    · rw [if_pos e', if_pos ⟨rfl, e'⟩]
    · rw [if_neg e', if_neg (fun h => e' h.2)]
  · rw [if_neg e, if_neg (fun h => e h.1)]

theorem rd3_get {n m l : Nat} (a : Vector (Vector (Vector α l) m) n) {i k t : Nat} (h : i < n) (hk : k < m)
    (ht : t < l) : wbsm4.rd3 a i k t = .ok (((a[i]!)[k]!)[t]!) := by
  unfold wbsm4.rd3
  rw [rd_get a h, C_pure_bind, rd_get _ hk, C_pure_bind, rd_get _ ht]

theorem wr3_get {n m l : Nat} (a : Vector (Vector (Vector α l) m) n) {i k t : Nat} (h : i < n) (hk : k < m)
    (ht : t < l) (v : α) :
    ∃ a', wbsm4.wr3 a i k t v = .ok a' ∧ ∀ x y z, x < n → y < m → z < l →
      ((a'[x]!)[y]!)[z]! = if x = i ∧ y = k ∧ z = t then v else ((a[x]!)[y]!)[z]! := by
  unfold wbsm4.wr3
  rw [rd_get a h, C_pure_bind]
  simp only [C_pure_bind]
  rw [rd_get _ hk, C_pure_bind]
  obtain ⟨b, hb, hb'⟩ := wr_get (a[i]!)[k]! ht v
  rw [hb, C_pure_bind]
  obtain ⟨c, hc, hc'⟩ := wr_get a[i]! hk b
  rw [hc, C_pure_bind]
  obtain ⟨d, hd, hd'⟩ := wr_get a h c
  refine ⟨d, hd, ?_⟩
  intro x y z hx hy hz
  rw [hd' x hx]
  by_cases e : x = i
  · subst e
    rw [if_pos rfl, hc' y hy]
    by_cases e' : y = k
    · subst e'
      rw [if_pos rfl, hb' z hz]
      by_cases e2 : z = t
      · rw [if_pos e2, if_pos ⟨rfl, rfl, e2⟩]
      · rw [if_neg e2, if_neg (fun h => e2 h.2.2)]
    · rw [if_neg e', if_neg (fun h => e' h.2.1)]
  · rw [if_neg e, if_neg (fun h => e h.1)]

end

namespace wbsm4
open SM4 sm4

theorem rdFlat_get {α : Type} [Inhabited α] {n : Nat} (a : Vector (Vector (Vector α 256) 4) n) {i d k : Nat}
    (hi : i < n) (hd : d < 4) (hk : k < 256) : rdFlat a (1024 * i + (256 * d + k)) = .ok (((a[i]!)[d]!)[k]!) := by
  unfold rdFlat
  rw [show (1024 * i + (256 * d + k)) / 1024 = i by omega, show (1024 * i + (256 * d + k)) / 256 % 4 = d by omega,
    show (1024 * i + (256 * d + k)) % 256 = k by omega, rd3_get a hi hd hk]

theorem wrFlat_get {α : Type} [Inhabited α] {n : Nat} (a : Vector (Vector (Vector α 256) 4) n) {i d k : Nat}
    (hi : i < n) (hd : d < 4) (hk : k < 256) (v : α) :
    ∃ a', wrFlat a (1024 * i + (256 * d + k)) v = .ok a' ∧ ∀ x y z, x < n → y < 4 → z < 256 →
      ((a'[x]!)[y]!)[z]! = if x = i ∧ y = d ∧ z = k then v else ((a[x]!)[y]!)[z]! := by
  unfold wrFlat
  rw [show (1024 * i + (256 * d + k)) / 1024 = i by omega, show (1024 * i + (256 * d + k)) / 256 % 4 = d by omega,
    show (1024 * i + (256 * d + k)) % 256 = k by omega]
  exact wr3_get a hi hd hk v

/-! ## Constants -/

theorem SBOX_eq : SBOX = SboxTable := rfl

theorem rd_SBOX (x : BitVec 8) : rd SBOX x.toNat = .ok (S x) := by
  rw [SBOX_eq]; exact sm4Sbox_eq x

/-- The matrix of the linear layer as numbers. -/
def cslNat : Vector Nat 32 :=
  #v[0xA0202080, 0x50101040, 0x28080820, 0x14040410, 0xA020208, 0x5010104, 0x2808082, 0x1404041,
   0x80A02020, 0x40501010, 0x20280808, 0x10140404, 0x80A0202, 0x4050101, 0x82028080, 0x41014040,
   0x2080A020, 0x10405010, 0x8202808, 0x4101404, 0x2080A02, 0x1040501, 0x80820280, 0x40410140,
   0x202080A0, 0x10104050, 0x8082028, 0x4041014, 0x202080A, 0x1010405, 0x80808202, 0x40404101]

theorem csl_map {W : Nat} : (sm4_csl_xor_matrix : Vector (BitVec W) 32) = cslNat.map (BitVec.ofNat W) := by
  simp [sm4_csl_xor_matrix, cslNat]

/-- The matrix of the linear layer. -/
def csl : M32 := cslNat.map (BitVec.ofNat 32)

theorem csl_bits : ∀ i j : Fin 32, csl[i].getLsbD (31 - j.val) =
    (L (1#32 <<< (31 - j.val))).getLsbD (31 - i.val) := by decide +kernel

theorem unitWord_eq (j : Fin 32) : (unitWord j : BitVec 32) = 1#32 <<< (31 - j.val) := by
  rw [← unvec_vec (1#32 <<< (31 - j.val))]
  unfold unitWord
  congr 1
  funext k
  simp only [vecOf, bitS, Pi.single_apply]
  by_cases e : k = j
  · subst e
    rw [if_pos rfl]
    have : (1#32 <<< (31 - k.val)).getLsbD (32 - 1 - k.val) = true := by
      rw [BitVec.getLsbD_shiftLeft]; simp; omega
    rw [this]; rfl
  · rw [if_neg e]
    have hk := k.isLt
    have hj := j.isLt
    have hne : k.val ≠ j.val := fun h => e (Fin.ext h)
    have : (1#32 <<< (31 - j.val)).getLsbD (32 - 1 - k.val) = false := by
      rw [BitVec.getLsbD_shiftLeft]
      simp; omega
    rw [this]; rfl

theorem csl_table (i j : Fin 32) : mat32 csl i j = vec32 (L (unitWord j)) i := by
  rw [unitWord_eq]
  have := csl_bits i j
  simp only [mat32, vec32, matOf, vecOf, bitS]
  rw [show 32 - 1 - j.val = 31 - j.val by omega, show 32 - 1 - i.val = 31 - i.val by omega, this]

theorem rotateLeft_xor (x y : BitVec 32) (n : Nat) (hn : n < 32) :
    (x ^^^ y).rotateLeft n = x.rotateLeft n ^^^ y.rotateLeft n := by
  apply BitVec.eq_of_getLsbD_eq
  intro i hi
  simp only [BitVec.getLsbD_xor, BitVec.getLsbD_rotateLeft, Nat.mod_eq_of_lt hn, hi, decide_true, Bool.true_and]
  cases decide (i < n) <;> rfl

theorem L_xor (x y : BitVec 32) : L (x ^^^ y) = L x ^^^ L y := by
  unfold L
  rw [rotateLeft_xor x y 2 (by omega), rotateLeft_xor x y 10 (by omega), rotateLeft_xor x y 18 (by omega),
    rotateLeft_xor x y 24 (by omega)]
  generalize x.rotateLeft 2 = a, x.rotateLeft 10 = b, x.rotateLeft 18 = c, x.rotateLeft 24 = d,
    y.rotateLeft 2 = a', y.rotateLeft 10 = b', y.rotateLeft 18 = c', y.rotateLeft 24 = d'
  ac_rfl

theorem lin_csl (x : BitVec 32) : lin csl x = L x := lin_of_additive L L_xor csl csl_table x

theorem initMatrixL_ok {W : Nat} (hW : 32 ≤ W) (m0 : M32) : Ok (initMatrixL W m0) (fun m => m = csl) := by
  unfold initMatrixL
  refine Ok.forUp (fun i m => ∀ j, (hj : j < 32) → j < i → m[j] = csl[j]) (by omega) (by omega) ?_ ?_
  · intro i m _ hi h
    rw [rd_ok _ _ hi, C_pure_bind, wr_ok _ _ _ hi, Ok.ok_iff]
    intro j hj hji
    rw [Vector.getElem_set]
    by_cases e : i = j
    · subst e
      rw [if_pos rfl]
      simp only [csl_map, csl, Vector.getElem_map]
      exact low_ofNat hW _
    · rw [if_neg e]; exact h j hj (by omega)
  · intro m h
    ext1 j hj
    exact h j hj hj

/-! ## The key dependent S-boxes -/

theorem idx_byte (rk : BitVec 32) (j d : Nat) (hj : j < 256) (hd : d < 4) :
    rd SBOX (BitVec.ofNat 32 j ^^^ (rk >>> (24 - 8 * d) &&& 0xff)).toNat =
      .ok (S (BitVec.ofNat 8 j ^^^ byte rk d)) := by
  rw [← rd_SBOX]
  congr 1
  have : BitVec.ofNat 32 j ^^^ (rk >>> (24 - 8 * d) &&& 0xff) = (BitVec.ofNat 8 j ^^^ byte rk d).setWidth 32 := by
    unfold byte
    apply BitVec.eq_of_getLsbD_eq
    intro i hi
    have hm : (0xff : BitVec 32).getLsbD i = decide (i < 8) := by
      have : (0xff : BitVec 32) = BitVec.ofNat 32 (2 ^ 8 - 1) := rfl
      rw [this, BitVec.getLsbD_ofNat, Nat.testBit_two_pow_sub_one]
      simp [hi]
    simp only [BitVec.getLsbD_xor, BitVec.getLsbD_and, BitVec.getLsbD_ushiftRight, BitVec.getLsbD_setWidth,
      BitVec.getLsbD_extractLsb', BitVec.getLsbD_ofNat, hm, hi, decide_true, Bool.true_and]
    by_cases h8 : i < 8
    · simp [h8]
    · have : j.testBit i = false := Nat.testBit_lt_two_pow (Nat.lt_of_lt_of_le hj
        (Nat.pow_le_pow_right (n := 2) (i := 8) (by omega) (by omega)))
      simp [h8, this]
  rw [this, BitVec.toNat_setWidth]
  exact Nat.mod_eq_of_lt (Nat.lt_of_lt_of_le (BitVec.isLt _) (by decide))

theorem gen_secrect_sbox_ok {W : Nat} (env : Env) (ctx : sm4_context W) (rk : Nat → BitVec 32) (hk : Keys ctx.sk rk)
    (g : Globals) :
    Ok (sm4_wb_gen_secrect_sbox env ctx g) (fun g' => ∀ i d k, i < 32 → d < 4 → k < 256 →
      ((g'.skbox_enc[i]!)[d]!)[k]! = S (BitVec.ofNat 8 k ^^^ byte (rk i) d)) := by
  unfold sm4_wb_gen_secrect_sbox
  rw [Ok.bind_iff]
  refine Ok.forUp (fun i key => ∀ j, (hj : j < 32) → j < i → key[j] = rk j) (by omega) (by omega) ?_ ?_
  · intro i key _ hi h
    rw [rd_ok _ _ hi, C_pure_bind, wr_ok _ _ _ hi, Ok.ok_iff]
    intro j hj hji
    rw [Vector.getElem_set]
    by_cases e : i = j
    · subst e
      rw [if_pos rfl]
      exact hk i hi
    · rw [if_neg e]; exact h j hj (by omega)
  intro key hkey
  rw [Ok.bind_iff]
  refine Ok.forUp (fun i (sk : Vector (Vector (Vector (BitVec 8) 256) 4) 32) =>
    ∀ x d k, x < 32 → d < 4 → k < 256 → x < i → ((sk[x]!)[d]!)[k]! = S (BitVec.ofNat 8 k ^^^ byte (rk x) d))
    (by omega) (by omega) ?_ ?_
  · intro i sk _ hi h
    refine Ok.forUp (fun j (sk : Vector (Vector (Vector (BitVec 8) 256) 4) 32) =>
      ∀ x d k, x < 32 → d < 4 → k < 256 → x < i ∨ (x = i ∧ k < j) →
        ((sk[x]!)[d]!)[k]! = S (BitVec.ofNat 8 k ^^^ byte (rk x) d)) (by omega) ?_ ?_ ?_
    · intro x d k hx hd hk' hlt
      exact h x d k hx hd hk' (by omega)
    · intro j sk _ hj h
      have e0 := idx_byte (rk i) j 0 hj (by omega)
      have e1 := idx_byte (rk i) j 1 hj (by omega)
      have e2 := idx_byte (rk i) j 2 hj (by omega)
      have e3 := idx_byte (rk i) j 3 hj (by omega)
      simp only [Nat.mul_zero, Nat.sub_zero, Nat.mul_one, show 24 - 8 = 16 from rfl, show 24 - 8 * 2 = 8 from rfl,
        show 24 - 8 * 3 = 0 from rfl, BitVec.ushiftRight_zero] at e0 e1 e2 e3
      rw [rd_ok key _ hi, C_pure_bind, hkey i hi hi]
      simp only
      rw [e0, C_pure_bind, e1]
      obtain ⟨s0, w0, g0⟩ := wrFlat_get sk (i := i) (d := 0) (k := j) hi (by omega) hj
        (S (BitVec.ofNat 8 j ^^^ byte (rk i) 0))
      rw [show 256 * 0 + j = 0 + j by omega] at w0
      rw [w0, C_pure_bind, C_pure_bind, e2]
      obtain ⟨s1, w1, g1⟩ := wrFlat_get s0 (i := i) (d := 1) (k := j) hi (by omega) hj
        (S (BitVec.ofNat 8 j ^^^ byte (rk i) 1))
      rw [show 256 * 1 + j = 256 + j by omega] at w1
      rw [w1, C_pure_bind, C_pure_bind, e3]
      obtain ⟨s2, w2, g2⟩ := wrFlat_get s1 (i := i) (d := 2) (k := j) hi (by omega) hj
        (S (BitVec.ofNat 8 j ^^^ byte (rk i) 2))
      rw [show 256 * 2 + j = 512 + j by omega] at w2
      rw [w2, C_pure_bind, C_pure_bind]
      obtain ⟨s3, w3, g3⟩ := wrFlat_get s2 (i := i) (d := 3) (k := j) hi (by omega) hj
        (S (BitVec.ofNat 8 j ^^^ byte (rk i) 3))
      rw [show 256 * 3 + j = 768 + j by omega] at w3
      rw [w3, Ok.ok_iff]
      intro x d k hx hd hk' hlt
      rw [g3 x d k hx hd hk', g2 x d k hx hd hk', g1 x d k hx hd hk', g0 x d k hx hd hk']
      by_cases c : x = i ∧ k = j
      · obtain ⟨rfl, rfl⟩ := c
        obtain rfl | rfl | rfl | rfl : d = 0 ∨ d = 1 ∨ d = 2 ∨ d = 3 := by omega
        · rw [if_neg (by omega), if_neg (by omega), if_neg (by omega), if_pos (by omega)]
        · rw [if_neg (by omega), if_neg (by omega), if_pos (by omega)]
        · rw [if_neg (by omega), if_pos (by omega)]
        · rw [if_pos (by omega)]
      · rw [if_neg (by omega), if_neg (by omega), if_neg (by omega), if_neg (by omega)]
        exact h x d k hx hd hk' (by omega)
    · intro sk h x d k hx hd hk' hlt
      exact h x d k hx hd hk' (by omega)
  · intro sk h
    rw [Ok.pure_iff]
    intro i d k hi hd hk'
    exact h i d k hi hd hk' hi

end wbsm4
end WB
