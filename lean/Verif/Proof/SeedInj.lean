import Verif.Proof.SeedWit
import Verif.Proof.Rel
import Mathlib.Tactic.LinearCombination
import Mathlib.Tactic.Linarith

/-!
# The stream of the generator determines the seed

Nineteen consecutive draws determine the index and the offset of the generator.
-/
namespace WB

attribute [local irreducible] permN

/-- Three consecutive arguments are squared with the same sign. -/
def Reg (y : Nat) : Prop := y + 2 ≤ 2147483645 ∨ (2147483646 ≤ y ∧ y + 2 < 4294967291)

/-- On a regular stretch the values are the squares, or the negated squares, modulo the prime. -/
theorem permN_reg {y : Nat} (h : Reg y) : ∃ e m0 m1 m2 : Int, (e = 1 ∨ e = -1) ∧
    (permN y : Int) = e * (y * y) + 4294967291 * m0 ∧
    (permN (y + 1) : Int) = e * (y * y + 2 * y + 1) + 4294967291 * m1 ∧
    (permN (y + 2) : Int) = e * (y * y + 4 * y + 4) + 4294967291 * m2 := by
  have d0 := Nat.div_add_mod (y * y) 4294967291
  have d1 := Nat.div_add_mod ((y + 1) * (y + 1)) 4294967291
  have d2 := Nat.div_add_mod ((y + 2) * (y + 2)) 4294967291
  have l0 := Nat.mod_lt (y * y) (show 4294967291 > 0 by norm_num)
  have l1 := Nat.mod_lt ((y + 1) * (y + 1)) (show 4294967291 > 0 by norm_num)
  have l2 := Nat.mod_lt ((y + 2) * (y + 2)) (show 4294967291 > 0 by norm_num)
  rw [show (y + 1) * (y + 1) = y * y + 2 * y + 1 by ring] at d1 l1
  rw [show (y + 2) * (y + 2) = y * y + 4 * y + 4 by ring] at d2 l2
  rw [permN_eq, permN_eq, permN_eq, show (y + 1) * (y + 1) = y * y + 2 * y + 1 by ring,
    show (y + 2) * (y + 2) = y * y + 4 * y + 4 by ring]
  rcases h with h | ⟨h, h'⟩
  · refine ⟨1, -((y * y / 4294967291 : Nat) : Int), -(((y * y + 2 * y + 1) / 4294967291 : Nat) : Int),
      -(((y * y + 4 * y + 4) / 4294967291 : Nat) : Int), Or.inl rfl, ?_⟩
    rw [if_neg (by omega), if_pos (by omega), if_neg (by omega), if_pos (by omega), if_neg (by omega),
      if_pos (by omega)]
    generalize y * y / 4294967291 = a at *
    generalize (y * y + 2 * y + 1) / 4294967291 = b at *
    generalize (y * y + 4 * y + 4) / 4294967291 = c at *
    generalize y * y % 4294967291 = a' at *
    generalize (y * y + 2 * y + 1) % 4294967291 = b' at *
    generalize (y * y + 4 * y + 4) % 4294967291 = c' at *
    have hz : ((y * y : Nat) : Int) = (y : Int) * y := by push_cast; ring
    rw [← hz]
    generalize y * y = z at *
    omega
  · refine ⟨-1, 1 + ((y * y / 4294967291 : Nat) : Int), 1 + (((y * y + 2 * y + 1) / 4294967291 : Nat) : Int),
      1 + (((y * y + 4 * y + 4) / 4294967291 : Nat) : Int), Or.inr rfl, ?_⟩
    rw [if_neg (by omega), if_neg (by omega), if_neg (by omega), if_neg (by omega), if_neg (by omega),
      if_neg (by omega)]
    generalize y * y / 4294967291 = a at *
    generalize (y * y + 2 * y + 1) / 4294967291 = b at *
    generalize (y * y + 4 * y + 4) / 4294967291 = c at *
    generalize y * y % 4294967291 = a' at *
    generalize (y * y + 2 * y + 1) % 4294967291 = b' at *
    generalize (y * y + 4 * y + 4) % 4294967291 = c' at *
    have hz : ((y * y : Nat) : Int) = (y : Int) * y := by push_cast; ring
    rw [← hz]
    generalize y * y = z at *
    omega

theorem permN_le {y : Nat} (h : y < 4294967296) : permN y < 4294967296 := by
  rw [permN_eq]
  have := Nat.mod_lt (y * y) (show 4294967291 > 0 by norm_num)
  split_ifs <;> omega

theorem reg_same {x k1 k2 v1 v2 : Int} (h : -4294967291 < x) (h' : x < 4294967291)
    (hk1 : k1 = -1 ∨ k1 = 0 ∨ k1 = 1) (hk2 : k2 = -1 ∨ k2 = 0 ∨ k2 = 1)
    (r1 : 2 * x = 5 * k1 + 4294967291 * v1) (r2 : 4 * x = 5 * k2 + 4294967291 * v2) : x = 0 := by
  have r3 : 2 * (5 * k1 + 4294967291 * v1) = 5 * k2 + 4294967291 * v2 := by
    linear_combination r2 - 2 * r1
  have hl : -1 ≤ k1 := by clear r1 r2 r3; omega
  have hu : k1 ≤ 1 := by clear r1 r2 r3; omega
  have hv1 : -3 < v1 := by linarith
  have hv2 : v1 < 3 := by linarith
  have hv : v1 = -2 ∨ v1 = -1 ∨ v1 = 0 ∨ v1 = 1 ∨ v1 = 2 := by clear r1 r2 r3; omega
  clear r2
  rcases hk1 with rfl | rfl | rfl <;> rcases hk2 with rfl | rfl | rfl <;>
    rcases hv with rfl | rfl | rfl | rfl | rfl <;> omega

theorem reg_mixed {x k1 k2 v1 v2 : Int} (h : 0 ≤ x) (h' : x < 8589934582)
    (hk1 : k1 = -1 ∨ k1 = 0 ∨ k1 = 1) (hk2 : k2 = -1 ∨ k2 = 0 ∨ k2 = 1)
    (r1 : 2 * x + 2 = 5 * k1 + 4294967291 * v1) (r2 : 4 * x + 8 = 5 * k2 + 4294967291 * v2) : False := by
  have r3 : 2 * (5 * k1 + 4294967291 * v1) + 4 = 5 * k2 + 4294967291 * v2 := by
    linear_combination r2 - 2 * r1
  have hl : -1 ≤ k1 := by clear r1 r2 r3; omega
  have hu : k1 ≤ 1 := by clear r1 r2 r3; omega
  have hv1 : -1 < v1 := by linarith
  have hv2 : v1 < 5 := by linarith
  have hv : v1 = 0 ∨ v1 = 1 ∨ v1 = 2 ∨ v1 = 3 ∨ v1 = 4 := by clear r1 r2 r3; omega
  clear r2 r1
  rcases hk1 with rfl | rfl | rfl <;> rcases hk2 with rfl | rfl | rfl <;>
    rcases hv with rfl | rfl | rfl | rfl | rfl <;> omega

theorem reg_arith {y z : Int} (a0 a1 a2 b0 b1 b2 : Int) {k1 k2 e f m0 m1 m2 n0 n1 n2 : Int}
    (hy : 0 ≤ y) (hy' : y < 4294967291) (hz : 0 ≤ z) (hz' : z < 4294967291)
    (ha0 : 0 ≤ a0) (ha0' : a0 < 4294967296) (ha1 : 0 ≤ a1) (ha1' : a1 < 4294967296)
    (ha2 : 0 ≤ a2) (ha2' : a2 < 4294967296) (hb0 : 0 ≤ b0) (hb0' : b0 < 4294967296)
    (hb1 : 0 ≤ b1) (hb1' : b1 < 4294967296) (hb2 : 0 ≤ b2) (hb2' : b2 < 4294967296)
    (he : e = 1 ∨ e = -1) (hf : f = 1 ∨ f = -1)
    (h1 : a1 - b1 = a0 - b0 + 4294967296 * k1) (h2 : a2 - b2 = a0 - b0 + 4294967296 * k2)
    (p0 : a0 = e * (y * y) + 4294967291 * m0) (p1 : a1 = e * (y * y + 2 * y + 1) + 4294967291 * m1)
    (p2 : a2 = e * (y * y + 4 * y + 4) + 4294967291 * m2)
    (q0 : b0 = f * (z * z) + 4294967291 * n0) (q1 : b1 = f * (z * z + 2 * z + 1) + 4294967291 * n1)
    (q2 : b2 = f * (z * z + 4 * z + 4) + 4294967291 * n2) : y = z := by
  have hk1l : -2 < k1 := by linarith
  have hk1u : k1 < 2 := by linarith
  have hk1 : k1 = -1 ∨ k1 = 0 ∨ k1 = 1 := by clear p0 p1 p2 q0 q1 q2 h1 h2; omega
  have hk2l : -2 < k2 := by linarith
  have hk2u : k2 < 2 := by linarith
  have hk2 : k2 = -1 ∨ k2 = 0 ∨ k2 = 1 := by clear p0 p1 p2 q0 q1 q2 h1 h2; omega
  have r1 : e * (2 * y + 1) - f * (2 * z + 1) = 4294967296 * k1 - 4294967291 * (m1 - m0 - n1 + n0) := by
    linear_combination h1 - p1 + q1 + p0 - q0
  have r2 : e * (4 * y + 4) - f * (4 * z + 4) = 4294967296 * k2 - 4294967291 * (m2 - m0 - n2 + n0) := by
    linear_combination h2 - p2 + q2 + p0 - q0
  generalize m1 - m0 - n1 + n0 = u1 at r1
  generalize m2 - m0 - n2 + n0 = u2 at r2
  clear h1 h2 p0 p1 p2 q0 q1 q2 ha0 ha1 ha2 hb0 hb1 hb2 ha0' ha1' ha2' hb0' hb1' hb2'
  rcases he with rfl | rfl <;> rcases hf with rfl | rfl
  · exact sub_eq_zero.1 (reg_same (x := y - z) (by linarith) (by linarith) hk1 hk2 (v1 := k1 - u1) (v2 := k2 - u2)
      (by linear_combination r1) (by linear_combination r2))
  · exact (reg_mixed (x := y + z) (by linarith) (by linarith) hk1 hk2 (v1 := k1 - u1) (v2 := k2 - u2)
      (by linear_combination r1) (by linear_combination r2)).elim
  · exact (reg_mixed (x := y + z) (k1 := -k1) (k2 := -k2) (by linarith) (by linarith) (by clear r1 r2; omega) (by clear r1 r2; omega)
      (v1 := u1 - k1) (v2 := u2 - k2) (by linear_combination -r1) (by linear_combination -r2)).elim
  · exact (sub_eq_zero.1 (reg_same (x := z - y) (by linarith) (by linarith) hk1 hk2 (v1 := k1 - u1) (v2 := k2 - u2)
      (by linear_combination r1) (by linear_combination r2))).symm

theorem permN_int {y : Nat} (h : y < 4294967296) : 0 ≤ (permN y : Int) ∧ (permN y : Int) < 4294967296 :=
  ⟨Int.natCast_nonneg _, by exact_mod_cast permN_le h⟩

/-- Two regular stretches whose values differ by a constant modulo `2^32` are the same. -/
theorem reg_inj {y z : Nat} (hy : Reg y) (hz : Reg z) {k1 k2 : Int}
    (h1 : (permN (y + 1) : Int) - permN (z + 1) = permN y - permN z + 4294967296 * k1)
    (h2 : (permN (y + 2) : Int) - permN (z + 2) = permN y - permN z + 4294967296 * k2) : y = z := by
  have hyb : y + 2 < 4294967291 := by rcases hy with h | ⟨h, h'⟩ <;> omega
  have hzb : z + 2 < 4294967291 := by rcases hz with h | ⟨h, h'⟩ <;> omega
  obtain ⟨e, m0, m1, m2, he, p0, p1, p2⟩ := permN_reg hy
  obtain ⟨f, n0, n1, n2, hf, q0, q1, q2⟩ := permN_reg hz
  have by0 := permN_int (y := y) (by omega)
  have by1 := permN_int (y := y + 1) (by omega)
  have by2 := permN_int (y := y + 2) (by omega)
  have bz0 := permN_int (y := z) (by omega)
  have bz1 := permN_int (y := z + 1) (by omega)
  have bz2 := permN_int (y := z + 2) (by omega)
  have := reg_arith (y := y) (z := z) _ _ _ _ _ _ (by omega) (by omega) (by omega) (by omega)
    by0.1 by0.2 by1.1 by1.2 by2.1 by2.2 bz0.1 bz0.2 bz1.1 bz1.2 bz2.1 bz2.2 he hf h1 h2 p0 p1 p2 q0 q1 q2
  exact_mod_cast this

/-- Among the stretches starting at 0, 8 and 16 after `i` at most one is not regular. -/
theorem reg_cases (i : Nat) :
    (Reg (i % 4294967296) ∧ Reg ((i + 8) % 4294967296)) ∨
    (Reg (i % 4294967296) ∧ Reg ((i + 16) % 4294967296)) ∨
    (Reg ((i + 8) % 4294967296) ∧ Reg ((i + 16) % 4294967296)) := by
  unfold Reg
  omega

theorem permQ_sum {i o i' o' : BitVec 32} (h : permuteQPR i + o = permuteQPR i' + o') :
    ∃ k : Int, (permN i.toNat : Int) + o.toNat = permN i'.toNat + o'.toNat + 4294967296 * k := by
  have := congrArg BitVec.toNat h
  rw [BitVec.toNat_add, BitVec.toNat_add, permuteQPR_permN, permuteQPR_permN] at this
  refine ⟨((permN i.toNat : Int) + o.toNat) / 4294967296 - (permN i'.toNat + o'.toNat) / 4294967296, ?_⟩
  omega

theorem draw_eq {i o i' o' : BitVec 32} (h : draw o i = draw o' i') :
    permuteQPR i + o = permuteQPR i' + o' := by
  unfold draw at h
  have h1 := permuteQPR_inj h
  have h2 := congrArg (· ^^^ 0x5bf03635#32) h1
  simpa [BitVec.xor_assoc] using h2

theorem stretch_inj {i o i' o' : BitVec 32} (k : Nat)
    (hy : Reg ((i.toNat + k) % 4294967296)) (hz : Reg ((i'.toNat + k) % 4294967296))
    (h : ∀ t < 3, draw o (i + BitVec.ofNat 32 (k + t)) = draw o' (i' + BitVec.ofNat 32 (k + t))) :
    i = i' := by
  obtain ⟨k0, h0⟩ := permQ_sum (draw_eq (h 0 (by norm_num)))
  obtain ⟨k1, h1⟩ := permQ_sum (draw_eq (h 1 (by norm_num)))
  obtain ⟨k2, h2⟩ := permQ_sum (draw_eq (h 2 (by norm_num)))
  have e : ∀ (x : BitVec 32) (t : Nat), t < 3 → Reg ((x.toNat + k) % 4294967296) →
      (x + BitVec.ofNat 32 (k + t)).toNat = (x.toNat + k) % 4294967296 + t := by
    intro x t ht hr
    rw [BitVec.toNat_add, BitVec.toNat_ofNat]
    unfold Reg at hr
    omega
  rw [e i 0 (by norm_num) hy, e i' 0 (by norm_num) hz] at h0
  rw [e i 1 (by norm_num) hy, e i' 1 (by norm_num) hz] at h1
  rw [e i 2 (by norm_num) hy, e i' 2 (by norm_num) hz] at h2
  have hh := reg_inj hy hz (k1 := k1 - k0) (k2 := k2 - k0) (by
      simp only [Nat.add_zero] at h0; omega) (by simp only [Nat.add_zero] at h0; omega)
  apply BitVec.eq_of_toNat_eq
  have := i.isLt
  have := i'.isLt
  omega

/-- Nineteen consecutive draws determine the state of the generator. -/
theorem stream_inj {i o i' o' : BitVec 32}
    (h : ∀ k < 19, draw o (i + BitVec.ofNat 32 k) = draw o' (i' + BitVec.ofNat 32 k)) :
    i = i' ∧ o = o' := by
  have hi : i = i' := by
    have a0 : Reg (i.toNat % 4294967296) → Reg (i'.toNat % 4294967296) → i = i' := fun ha hb =>
      stretch_inj 0 (by simpa using ha) (by simpa using hb) fun t ht => h _ (by omega)
    have a8 : Reg ((i.toNat + 8) % 4294967296) → Reg ((i'.toNat + 8) % 4294967296) → i = i' := fun ha hb =>
      stretch_inj 8 ha hb fun t ht => h _ (by omega)
    have a16 : Reg ((i.toNat + 16) % 4294967296) → Reg ((i'.toNat + 16) % 4294967296) → i = i' := fun ha hb =>
      stretch_inj 16 ha hb fun t ht => h _ (by omega)
    rcases reg_cases i.toNat with ⟨x, y⟩ | ⟨x, y⟩ | ⟨x, y⟩ <;>
      rcases reg_cases i'.toNat with ⟨u, v⟩ | ⟨u, v⟩ | ⟨u, v⟩ <;>
      first | exact a0 ‹_› ‹_› | exact a8 ‹_› ‹_› | exact a16 ‹_› ‹_›
  subst hi
  refine ⟨rfl, ?_⟩
  have := draw_eq (h 0 (by norm_num))
  simpa using this

theorem drawS_inj {s t : BitVec 32} (h : ∀ k < 19, drawS s k = drawS t k) : s = t :=
  seedIdx_inj s t (stream_inj h).1

theorem wordS_seed_inj {env env' : Env} (he : env.endian = env'.endian) {s t : BitVec 32}
    (h : ∀ k < 10, wordS env s k = wordS env' t k) : s = t := by
  refine drawS_inj fun k hk => ?_
  have h1 := h (k / 2) (by omega)
  unfold wordS at h1
  rw [pair64_congr he] at h1
  have h2 := pair64_inj h1
  rcases Nat.mod_two_eq_zero_or_one k with hm | hm
  · rw [show 2 * (k / 2) = k by omega] at h2
    exact h2.1
  · rw [show 2 * (k / 2) + 1 = k by omega] at h2
    exact h2.2

end WB
