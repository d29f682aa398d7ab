import Verif.Proof.Mul
import Verif.Proof.TransAll

/-!
# `MatMulVecM*`, `MatMulNumM*`, `MatMulMatM*` for every size (helper lemmas)

Written by `tools/gen_mul.py`.
-/
namespace WB
open Matrix

theorem mask4_and (x y : BitVec 8) :
    x &&& y &&& 0x0f = (x &&& 0x0f) &&& (y &&& 0x0f) := by
  ext i hi; simp; cases x[i] <;> cases y[i] <;> simp
theorem dot4 (x y : BitVec 8) :
    ((weight (x &&& y &&& 0x0f) : Nat) : ZMod 2) = ∑ j : Fin 4, bitF (bitS 4 x j) * bitF (bitS 4 y j) := by
  rw [mask4_and, dotS (n := 4) (by omega)]
  · refine Finset.sum_congr rfl fun j _ => ?_
    rw [bitS4_mask _ j.2, bitS4_mask _ j.2]
  · intro k hk
    rw [← mask4_and]; exact high4_mask _ k hk

theorem mulT {n : Nat} (A B T : Mat n) (hT : T = Bᵀ) (i j : Fin n) :
    ∑ k, A i k * T j k = (A * B) i j := by
  subst hT; rfl

/-- A product row computed word by word. -/
theorem andSet2 (t x y : Vector (BitVec 64) 2) : ∀ k (hk : k < 2),
    ((t.set 0 (x[0] &&& y[0])).set 1 (x[1] &&& y[1]))[k] = x[k] &&& y[k] := by
  intro k hk
  obtain rfl | rfl : k = 0 ∨ k = 1 := by omega
  all_goals simp

theorem andSet4 (t x y : Vector (BitVec 64) 4) : ∀ k (hk : k < 4),
    ((((t.set 0 (x[0] &&& y[0])).set 1 (x[1] &&& y[1])).set 2 (x[2] &&& y[2])).set 3
      (x[3] &&& y[3]))[k] = x[k] &&& y[k] := by
  intro k hk
  obtain rfl | rfl | rfl | rfl : k = 0 ∨ k = 1 ∨ k = 2 ∨ k = 3 := by omega
  all_goals simp

theorem initV128_eq (x : V128) : initV128 x = .ok (Vector.replicate 2 0) := by
  unfold initV128
  rw [wr_ok _ _ _ (by omega), C_pure_bind, wr_ok _ _ _ (by omega)]
  refine congrArg Except.ok (Vector.ext fun k hk => ?_)
  obtain rfl | rfl : k = 0 ∨ k = 1 := by omega
  all_goals simp

theorem initV256_eq (x : V256) : initV256 x = .ok (Vector.replicate 4 0) := by
  unfold initV256
  rw [wr_ok _ _ _ (by omega), C_pure_bind, wr_ok _ _ _ (by omega), C_pure_bind,
    wr_ok _ _ _ (by omega), C_pure_bind, wr_ok _ _ _ (by omega)]
  refine congrArg Except.ok (Vector.ext fun k hk => ?_)
  obtain rfl | rfl | rfl | rfl : k = 0 ∨ k = 1 ∨ k = 2 ∨ k = 3 := by omega
  all_goals simp

theorem MatMulVecM4_ok (env : Env) (A : M4) (x : BitVec 8) (y0 : V4) :
    Ok (MatMulVecM4 env A x y0) (fun y => vec4 y = (mat4 A).mulVec (vec4 x) ∧ Clean4 y) := by
  unfold MatMulVecM4 initV4
  rw [pure_bind]
  refine (mulVecS idOK4 _ _ ?_).mono (fun _ h => ⟨h.1, clean4_of_bits h.2⟩)
  intro i hi ans
  refine ⟨weight (A[i] &&& x &&& 0x0f), ?_, ?_⟩
  · rw [rd_ok _ _ hi, C_pure_bind, xorU4_eq, C_pure_bind]
  · exact dot4 _ _

theorem MatMulNumM4_ok (env : Env) (A : M4) (x : BitVec 8) :
    Ok (MatMulNumM4 env A x) (fun y => vec4 y = (mat4 A).mulVec (vec4 x) ∧ Clean4 y) := by
  unfold MatMulNumM4
  refine (mulVecS idOK4 _ _ ?_).mono (fun _ h => ⟨h.1, clean4_of_bits h.2⟩)
  intro i hi ans
  refine ⟨weight (A[i] &&& x &&& 0x0f), ?_, ?_⟩
  · rw [rd_ok _ _ hi, C_pure_bind, xorU4_eq, C_pure_bind]
  · exact dot4 _ _

theorem MatMulMatM4_ok (env : Env) (A B C0 : M4) (hB : CleanM4 B) :
    Ok (MatMulMatM4 env A B C0) (fun C => mat4 C = mat4 A * mat4 B ∧ CleanM4 C) := by
  unfold MatMulMatM4
  rw [initM4_eq, C_pure_bind]
  refine Ok.bind (MattransM4_ok env B _ hB) ?_
  rintro T ⟨hT, -⟩
  refine (mulMatS idOK4 _ _ ?_).mono
    (fun _ h => ⟨h.1, fun r => clean4_of_bits (h.2 r.val r.2)⟩)
  intro i j hi hj M
  refine ⟨weight (A[i] &&& T[j] &&& 0x0f), ?_, ?_⟩
  · rw [rd_ok _ _ hi, C_pure_bind, rd_ok _ _ hj, C_pure_bind, xorU4_eq, C_pure_bind]
  · rw [← mulT _ _ _ hT]
    exact dot4 _ _

theorem MatMulVecM8_ok (env : Env) (A : M8) (x : BitVec 8) (y0 : V8) :
    Ok (MatMulVecM8 env A x y0) (fun y => vec8 y = (mat8 A).mulVec (vec8 x)) := by
  unfold MatMulVecM8 initV8
  rw [pure_bind]
  refine (mulVecS idOK8 _ _ ?_).mono (fun _ h => h.1)
  intro i hi ans
  refine ⟨weight (A[i] &&& x), ?_, ?_⟩
  · rw [rd_ok _ _ hi, C_pure_bind, xorU8_eq, C_pure_bind]
  · exact dotS (n := 8) (by omega) _ _ (fun k hk => BitVec.getLsbD_of_ge _ _ hk)

theorem MatMulNumM8_ok (env : Env) (A : M8) (x : BitVec 8) :
    Ok (MatMulNumM8 env A x) (fun y => vec8 y = (mat8 A).mulVec (vec8 x)) := by
  unfold MatMulNumM8
  refine (mulVecS idOK8 _ _ ?_).mono (fun _ h => h.1)
  intro i hi ans
  refine ⟨weight (A[i] &&& x), ?_, ?_⟩
  · rw [rd_ok _ _ hi, C_pure_bind, xorU8_eq, C_pure_bind]
  · exact dotS (n := 8) (by omega) _ _ (fun k hk => BitVec.getLsbD_of_ge _ _ hk)

theorem MatMulMatM8_ok (env : Env) (A B C0 : M8) :
    Ok (MatMulMatM8 env A B C0) (fun C => mat8 C = mat8 A * mat8 B) := by
  unfold MatMulMatM8
  rw [initM8_eq, C_pure_bind]
  refine Ok.bind (MattransM8_ok env B _) ?_
  intro T hT
  refine (mulMatS idOK8 _ _ ?_).mono
    (fun _ h => h.1)
  intro i j hi hj M
  refine ⟨weight (A[i] &&& T[j]), ?_, ?_⟩
  · rw [rd_ok _ _ hi, C_pure_bind, rd_ok _ _ hj, C_pure_bind, xorU8_eq, C_pure_bind]
  · rw [← mulT _ _ _ hT]
    exact dotS (n := 8) (by omega) _ _ (fun k hk => BitVec.getLsbD_of_ge _ _ hk)

theorem MatMulVecM16_ok (env : Env) (A : M16) (x : BitVec 16) (y0 : V16) :
    Ok (MatMulVecM16 env A x y0) (fun y => vec16 y = (mat16 A).mulVec (vec16 x)) := by
  unfold MatMulVecM16 initV16
  rw [pure_bind]
  refine (mulVecS idOK16 _ _ ?_).mono (fun _ h => h.1)
  intro i hi ans
  refine ⟨weight (A[i] &&& x), ?_, ?_⟩
  · rw [rd_ok _ _ hi, C_pure_bind, xorU16_eq, C_pure_bind]
  · exact dotS (n := 16) (by omega) _ _ (fun k hk => BitVec.getLsbD_of_ge _ _ hk)

theorem MatMulNumM16_ok (env : Env) (A : M16) (x : BitVec 16) :
    Ok (MatMulNumM16 env A x) (fun y => vec16 y = (mat16 A).mulVec (vec16 x)) := by
  unfold MatMulNumM16
  refine (mulVecS idOK16 _ _ ?_).mono (fun _ h => h.1)
  intro i hi ans
  refine ⟨weight (A[i] &&& x), ?_, ?_⟩
  · rw [rd_ok _ _ hi, C_pure_bind, xorU16_eq, C_pure_bind]
  · exact dotS (n := 16) (by omega) _ _ (fun k hk => BitVec.getLsbD_of_ge _ _ hk)

theorem MatMulMatM16_ok (env : Env) (A B C0 : M16) :
    Ok (MatMulMatM16 env A B C0) (fun C => mat16 C = mat16 A * mat16 B) := by
  unfold MatMulMatM16
  rw [initM16_eq, C_pure_bind]
  refine Ok.bind (MattransM16_ok env B _) ?_
  intro T hT
  refine (mulMatS idOK16 _ _ ?_).mono
    (fun _ h => h.1)
  intro i j hi hj M
  refine ⟨weight (A[i] &&& T[j]), ?_, ?_⟩
  · rw [rd_ok _ _ hi, C_pure_bind, rd_ok _ _ hj, C_pure_bind, xorU16_eq, C_pure_bind]
  · rw [← mulT _ _ _ hT]
    exact dotS (n := 16) (by omega) _ _ (fun k hk => BitVec.getLsbD_of_ge _ _ hk)

theorem MatMulVecM32_ok (env : Env) (A : M32) (x : BitVec 32) (y0 : V32) :
    Ok (MatMulVecM32 env A x y0) (fun y => vec32 y = (mat32 A).mulVec (vec32 x)) := by
  unfold MatMulVecM32 initV32
  rw [pure_bind]
  refine (mulVecS idOK32 _ _ ?_).mono (fun _ h => h.1)
  intro i hi ans
  refine ⟨weight (A[i] &&& x), ?_, ?_⟩
  · rw [rd_ok _ _ hi, C_pure_bind, xorU32_eq, C_pure_bind]
  · exact dotS (n := 32) (by omega) _ _ (fun k hk => BitVec.getLsbD_of_ge _ _ hk)

theorem MatMulNumM32_ok (env : Env) (A : M32) (x : BitVec 32) :
    Ok (MatMulNumM32 env A x) (fun y => vec32 y = (mat32 A).mulVec (vec32 x)) := by
  unfold MatMulNumM32
  refine (mulVecS idOK32 _ _ ?_).mono (fun _ h => h.1)
  intro i hi ans
  refine ⟨weight (A[i] &&& x), ?_, ?_⟩
  · rw [rd_ok _ _ hi, C_pure_bind, xorU32_eq, C_pure_bind]
  · exact dotS (n := 32) (by omega) _ _ (fun k hk => BitVec.getLsbD_of_ge _ _ hk)

theorem MatMulMatM32_ok (env : Env) (A B C0 : M32) :
    Ok (MatMulMatM32 env A B C0) (fun C => mat32 C = mat32 A * mat32 B) := by
  unfold MatMulMatM32
  rw [initM32_eq, C_pure_bind]
  refine Ok.bind (MattransM32_ok env B _) ?_
  intro T hT
  refine (mulMatS idOK32 _ _ ?_).mono
    (fun _ h => h.1)
  intro i j hi hj M
  refine ⟨weight (A[i] &&& T[j]), ?_, ?_⟩
  · rw [rd_ok _ _ hi, C_pure_bind, rd_ok _ _ hj, C_pure_bind, xorU32_eq, C_pure_bind]
  · rw [← mulT _ _ _ hT]
    exact dotS (n := 32) (by omega) _ _ (fun k hk => BitVec.getLsbD_of_ge _ _ hk)

theorem MatMulVecM64_ok (env : Env) (A : M64) (x : BitVec 64) (y0 : V64) :
    Ok (MatMulVecM64 env A x y0) (fun y => vec64 y = (mat64 A).mulVec (vec64 x)) := by
  unfold MatMulVecM64 initV64
  rw [pure_bind]
  refine (mulVecS idOK64 _ _ ?_).mono (fun _ h => h.1)
  intro i hi ans
  refine ⟨weight (A[i] &&& x), ?_, ?_⟩
  · rw [rd_ok _ _ hi, C_pure_bind, xorU64_eq, C_pure_bind]
  · exact dotS (n := 64) (by omega) _ _ (fun k hk => BitVec.getLsbD_of_ge _ _ hk)

theorem MatMulNumM64_ok (env : Env) (A : M64) (x : BitVec 64) :
    Ok (MatMulNumM64 env A x) (fun y => vec64 y = (mat64 A).mulVec (vec64 x)) := by
  unfold MatMulNumM64
  refine (mulVecS idOK64 _ _ ?_).mono (fun _ h => h.1)
  intro i hi ans
  refine ⟨weight (A[i] &&& x), ?_, ?_⟩
  · rw [rd_ok _ _ hi, C_pure_bind, xorU64_eq, C_pure_bind]
  · exact dotS (n := 64) (by omega) _ _ (fun k hk => BitVec.getLsbD_of_ge _ _ hk)

theorem MatMulMatM64_ok (env : Env) (A B C0 : M64) :
    Ok (MatMulMatM64 env A B C0) (fun C => mat64 C = mat64 A * mat64 B) := by
  unfold MatMulMatM64
  rw [initM64_eq, C_pure_bind]
  refine Ok.bind (MattransM64_ok env B _) ?_
  intro T hT
  refine (mulMatS idOK64 _ _ ?_).mono
    (fun _ h => h.1)
  intro i j hi hj M
  refine ⟨weight (A[i] &&& T[j]), ?_, ?_⟩
  · rw [rd_ok _ _ hi, C_pure_bind, rd_ok _ _ hj, C_pure_bind, xorU64_eq, C_pure_bind]
  · rw [← mulT _ _ _ hT]
    exact dotS (n := 64) (by omega) _ _ (fun k hk => BitVec.getLsbD_of_ge _ _ hk)


theorem MatMulVecM128_ok (env : Env) (A : M128) (x y0 : V128) :
    Ok (MatMulVecM128 env A x y0) (fun y => vec128 y = (mat128 A).mulVec (vec128 x)) := by
  unfold MatMulVecM128
  rw [initV128_eq, C_pure_bind]
  dsimp only
  refine Ok.bind (mulVecW (l := 2) (n := 128) (p := 0) (lo := 0) (hi := 64) (by norm_num) (by omega) (by norm_num) (by norm_num) _ ((mat128 A).mulVec (vec128 x)) ?_ (by intro c; simp only [bitW, Nat.not_lt_zero, if_false, bitF_eq_zero]; by_cases h : c.val / 64 < 2 <;> simp [h])) ?_
  · rintro j hj ⟨ans, t⟩
    refine ⟨weightV ((t.set 0 (A[j][0] &&& x[0])).set 1 (A[j][1] &&& x[1])), ((t.set 0 (A[j][0] &&& x[0])).set 1 (A[j][1] &&& x[1])), ?_, ?_⟩
    · dsimp only
      rw [rd2_ok _ _ _ hj (by omega : 0 < 2), C_pure_bind, rd_ok _ _ (by omega : 0 < 2), C_pure_bind, wr_ok _ _ _ (by omega : 0 < 2), C_pure_bind, rd2_ok _ _ _ hj (by omega : 1 < 2), C_pure_bind, rd_ok _ _ (by omega : 1 < 2), C_pure_bind, wr_ok _ _ _ (by omega : 1 < 2), C_pure_bind, xorU128_eq, C_pure_bind]; rfl
    · exact dotW A[j] x _ (andSet2 t _ _)
  intro s1 hs1
  refine Ok.bind (mulVecW (l := 2) (n := 128) (p := 1) (lo := 64) (hi := 128) (by norm_num) (by omega) (by norm_num) (by norm_num) _ ((mat128 A).mulVec (vec128 x)) ?_ hs1) ?_
  · rintro j hj ⟨ans, t⟩
    refine ⟨weightV ((t.set 0 (A[j][0] &&& x[0])).set 1 (A[j][1] &&& x[1])), ((t.set 0 (A[j][0] &&& x[0])).set 1 (A[j][1] &&& x[1])), ?_, ?_⟩
    · dsimp only
      rw [rd2_ok _ _ _ hj (by omega : 0 < 2), C_pure_bind, rd_ok _ _ (by omega : 0 < 2), C_pure_bind, wr_ok _ _ _ (by omega : 0 < 2), C_pure_bind, rd2_ok _ _ _ hj (by omega : 1 < 2), C_pure_bind, rd_ok _ _ (by omega : 1 < 2), C_pure_bind, wr_ok _ _ _ (by omega : 1 < 2), C_pure_bind, xorU128_eq, C_pure_bind]
    · exact dotW A[j] x _ (andSet2 t _ _)
  intro s2 hs2
  rw [Ok.pure_iff]
  funext c
  exact (hs2 c).trans (if_pos c.2)

theorem MatMulMatM128_ok (env : Env) (A B C0 : M128) :
    Ok (MatMulMatM128 env A B C0) (fun C => mat128 C = mat128 A * mat128 B) := by
  unfold MatMulMatM128
  rw [initM128_eq, C_pure_bind]
  refine Ok.bind (MattransM128_ok env B _) ?_
  intro T hT
  refine Ok.bind (mulMatOuter _ (mat128 A * mat128 B) ?_ _) ?_
  · intro i hi s0 h0
    have key : ∀ j (hj : j < 128), ∑ c : Fin (64 * 2), bitF (bitW A[i] c) * bitF (bitW T[j] c) =
        (mat128 A * mat128 B) ⟨i, hi⟩ ⟨j, hj⟩ := fun j hj => by
      rw [← mulT _ _ _ hT]; rfl
    generalize (mat128 A * mat128 B) = D at key
    refine Ok.bind (mulMatW (l := 2) (n := 128) (p := 0) (M0 := s0.1) (lo := 0) (up := 64) (by norm_num) (by omega) (by norm_num) (by norm_num) hi _ (D ⟨i, hi⟩) ?_ (fun _ _ _ => rfl) (by intro c; simpa using h0 c)) ?_
    · rintro j hj ⟨ans, t⟩
      refine ⟨weightV ((t.set 0 (A[i][0] &&& T[j][0])).set 1 (A[i][1] &&& T[j][1])), ((t.set 0 (A[i][0] &&& T[j][0])).set 1 (A[i][1] &&& T[j][1])), ?_, ?_⟩
      · dsimp only
        rw [rd2_ok _ _ _ hi (by omega : 0 < 2), C_pure_bind, rd2_ok _ _ _ hj (by omega : 0 < 2), C_pure_bind, wr_ok _ _ _ (by omega : 0 < 2), C_pure_bind, rd2_ok _ _ _ hi (by omega : 1 < 2), C_pure_bind, rd2_ok _ _ _ hj (by omega : 1 < 2), C_pure_bind, wr_ok _ _ _ (by omega : 1 < 2), C_pure_bind, xorU128_eq, C_pure_bind]; rfl
      · exact (dotW A[i] T[j] _ (andSet2 t _ _)).trans (key j hj)
    intro s1 hs1
    refine (mulMatW (l := 2) (n := 128) (p := 1) (M0 := s0.1) (lo := 64) (up := 128) (by norm_num) (by omega) (by norm_num) (by norm_num) hi _ (D ⟨i, hi⟩) ?_ hs1.1 hs1.2).mono ?_
    · rintro j hj ⟨ans, t⟩
      refine ⟨weightV ((t.set 0 (A[i][0] &&& T[j][0])).set 1 (A[i][1] &&& T[j][1])), ((t.set 0 (A[i][0] &&& T[j][0])).set 1 (A[i][1] &&& T[j][1])), ?_, ?_⟩
      · dsimp only
        rw [rd2_ok _ _ _ hi (by omega : 0 < 2), C_pure_bind, rd2_ok _ _ _ hj (by omega : 0 < 2), C_pure_bind, wr_ok _ _ _ (by omega : 0 < 2), C_pure_bind, rd2_ok _ _ _ hi (by omega : 1 < 2), C_pure_bind, rd2_ok _ _ _ hj (by omega : 1 < 2), C_pure_bind, wr_ok _ _ _ (by omega : 1 < 2), C_pure_bind, xorU128_eq, C_pure_bind]
      · exact (dotW A[i] T[j] _ (andSet2 t _ _)).trans (key j hj)
    intro s2 hs2
    exact ⟨hs2.1, fun c => (hs2.2 c).trans (if_pos c.2)⟩
  · intro s hs
    rw [Ok.pure_iff]
    exact hs

set_option maxRecDepth 4000 in
theorem MatMulVecM256_ok (env : Env) (A : M256) (x y0 : V256) :
    Ok (MatMulVecM256 env A x y0) (fun y => vec256 y = (mat256 A).mulVec (vec256 x)) := by
  unfold MatMulVecM256
  rw [initV256_eq, C_pure_bind]
  dsimp only
  refine Ok.bind (mulVecW (l := 4) (n := 256) (p := 0) (lo := 0) (hi := 64) (by norm_num) (by omega) (by norm_num) (by norm_num) _ ((mat256 A).mulVec (vec256 x)) ?_ (by intro c; simp only [bitW, Nat.not_lt_zero, if_false, bitF_eq_zero]; by_cases h : c.val / 64 < 4 <;> simp [h])) ?_
  · rintro j hj ⟨ans, t⟩
    refine ⟨weightV ((((t.set 0 (A[j][0] &&& x[0])).set 1 (A[j][1] &&& x[1])).set 2 (A[j][2] &&& x[2])).set 3 (A[j][3] &&& x[3])), ((((t.set 0 (A[j][0] &&& x[0])).set 1 (A[j][1] &&& x[1])).set 2 (A[j][2] &&& x[2])).set 3 (A[j][3] &&& x[3])), ?_, ?_⟩
    · dsimp only
      rw [rd2_ok _ _ _ hj (by omega : 0 < 4), C_pure_bind, rd_ok _ _ (by omega : 0 < 4), C_pure_bind, wr_ok _ _ _ (by omega : 0 < 4), C_pure_bind, rd2_ok _ _ _ hj (by omega : 1 < 4), C_pure_bind, rd_ok _ _ (by omega : 1 < 4), C_pure_bind, wr_ok _ _ _ (by omega : 1 < 4), C_pure_bind, rd2_ok _ _ _ hj (by omega : 2 < 4), C_pure_bind, rd_ok _ _ (by omega : 2 < 4), C_pure_bind, wr_ok _ _ _ (by omega : 2 < 4), C_pure_bind, rd2_ok _ _ _ hj (by omega : 3 < 4), C_pure_bind, rd_ok _ _ (by omega : 3 < 4), C_pure_bind, wr_ok _ _ _ (by omega : 3 < 4), C_pure_bind, xorU256_eq, C_pure_bind]; rfl
    · exact dotW A[j] x _ (andSet4 t _ _)
  intro s1 hs1
  refine Ok.bind (mulVecW (l := 4) (n := 256) (p := 1) (lo := 64) (hi := 128) (by norm_num) (by omega) (by norm_num) (by norm_num) _ ((mat256 A).mulVec (vec256 x)) ?_ hs1) ?_
  · rintro j hj ⟨ans, t⟩
    refine ⟨weightV ((((t.set 0 (A[j][0] &&& x[0])).set 1 (A[j][1] &&& x[1])).set 2 (A[j][2] &&& x[2])).set 3 (A[j][3] &&& x[3])), ((((t.set 0 (A[j][0] &&& x[0])).set 1 (A[j][1] &&& x[1])).set 2 (A[j][2] &&& x[2])).set 3 (A[j][3] &&& x[3])), ?_, ?_⟩
    · dsimp only
      rw [rd2_ok _ _ _ hj (by omega : 0 < 4), C_pure_bind, rd_ok _ _ (by omega : 0 < 4), C_pure_bind, wr_ok _ _ _ (by omega : 0 < 4), C_pure_bind, rd2_ok _ _ _ hj (by omega : 1 < 4), C_pure_bind, rd_ok _ _ (by omega : 1 < 4), C_pure_bind, wr_ok _ _ _ (by omega : 1 < 4), C_pure_bind, rd2_ok _ _ _ hj (by omega : 2 < 4), C_pure_bind, rd_ok _ _ (by omega : 2 < 4), C_pure_bind, wr_ok _ _ _ (by omega : 2 < 4), C_pure_bind, rd2_ok _ _ _ hj (by omega : 3 < 4), C_pure_bind, rd_ok _ _ (by omega : 3 < 4), C_pure_bind, wr_ok _ _ _ (by omega : 3 < 4), C_pure_bind, xorU256_eq, C_pure_bind]
    · exact dotW A[j] x _ (andSet4 t _ _)
  intro s2 hs2
  refine Ok.bind (mulVecW (l := 4) (n := 256) (p := 2) (lo := 128) (hi := 192) (by norm_num) (by omega) (by norm_num) (by norm_num) _ ((mat256 A).mulVec (vec256 x)) ?_ hs2) ?_
  · rintro j hj ⟨ans, t⟩
    refine ⟨weightV ((((t.set 0 (A[j][0] &&& x[0])).set 1 (A[j][1] &&& x[1])).set 2 (A[j][2] &&& x[2])).set 3 (A[j][3] &&& x[3])), ((((t.set 0 (A[j][0] &&& x[0])).set 1 (A[j][1] &&& x[1])).set 2 (A[j][2] &&& x[2])).set 3 (A[j][3] &&& x[3])), ?_, ?_⟩
    · dsimp only
      rw [rd2_ok _ _ _ hj (by omega : 0 < 4), C_pure_bind, rd_ok _ _ (by omega : 0 < 4), C_pure_bind, wr_ok _ _ _ (by omega : 0 < 4), C_pure_bind, rd2_ok _ _ _ hj (by omega : 1 < 4), C_pure_bind, rd_ok _ _ (by omega : 1 < 4), C_pure_bind, wr_ok _ _ _ (by omega : 1 < 4), C_pure_bind, rd2_ok _ _ _ hj (by omega : 2 < 4), C_pure_bind, rd_ok _ _ (by omega : 2 < 4), C_pure_bind, wr_ok _ _ _ (by omega : 2 < 4), C_pure_bind, rd2_ok _ _ _ hj (by omega : 3 < 4), C_pure_bind, rd_ok _ _ (by omega : 3 < 4), C_pure_bind, wr_ok _ _ _ (by omega : 3 < 4), C_pure_bind, xorU256_eq, C_pure_bind]
    · exact dotW A[j] x _ (andSet4 t _ _)
  intro s3 hs3
  refine Ok.bind (mulVecW (l := 4) (n := 256) (p := 3) (lo := 192) (hi := 256) (by norm_num) (by omega) (by norm_num) (by norm_num) _ ((mat256 A).mulVec (vec256 x)) ?_ hs3) ?_
  · rintro j hj ⟨ans, t⟩
    refine ⟨weightV ((((t.set 0 (A[j][0] &&& x[0])).set 1 (A[j][1] &&& x[1])).set 2 (A[j][2] &&& x[2])).set 3 (A[j][3] &&& x[3])), ((((t.set 0 (A[j][0] &&& x[0])).set 1 (A[j][1] &&& x[1])).set 2 (A[j][2] &&& x[2])).set 3 (A[j][3] &&& x[3])), ?_, ?_⟩
    · dsimp only
      rw [rd2_ok _ _ _ hj (by omega : 0 < 4), C_pure_bind, rd_ok _ _ (by omega : 0 < 4), C_pure_bind, wr_ok _ _ _ (by omega : 0 < 4), C_pure_bind, rd2_ok _ _ _ hj (by omega : 1 < 4), C_pure_bind, rd_ok _ _ (by omega : 1 < 4), C_pure_bind, wr_ok _ _ _ (by omega : 1 < 4), C_pure_bind, rd2_ok _ _ _ hj (by omega : 2 < 4), C_pure_bind, rd_ok _ _ (by omega : 2 < 4), C_pure_bind, wr_ok _ _ _ (by omega : 2 < 4), C_pure_bind, rd2_ok _ _ _ hj (by omega : 3 < 4), C_pure_bind, rd_ok _ _ (by omega : 3 < 4), C_pure_bind, wr_ok _ _ _ (by omega : 3 < 4), C_pure_bind, xorU256_eq, C_pure_bind]
    · exact dotW A[j] x _ (andSet4 t _ _)
  intro s4 hs4
  rw [Ok.pure_iff]
  funext c
  exact (hs4 c).trans (if_pos c.2)

theorem MatMulMatM256_ok (env : Env) (A B C0 : M256) :
    Ok (MatMulMatM256 env A B C0) (fun C => mat256 C = mat256 A * mat256 B) := by
  unfold MatMulMatM256
  rw [initM256_eq, C_pure_bind]
  refine Ok.bind (MattransM256_ok env B _) ?_
  intro T hT
  refine Ok.bind (mulMatOuter _ (mat256 A * mat256 B) ?_ _) ?_
  · intro i hi s0 h0
    have key : ∀ j (hj : j < 256), ∑ c : Fin (64 * 4), bitF (bitW A[i] c) * bitF (bitW T[j] c) =
        (mat256 A * mat256 B) ⟨i, hi⟩ ⟨j, hj⟩ := fun j hj => by
      rw [← mulT _ _ _ hT]; rfl
    generalize (mat256 A * mat256 B) = D at key
    refine Ok.bind (mulMatW (l := 4) (n := 256) (p := 0) (M0 := s0.1) (lo := 0) (up := 64) (by norm_num) (by omega) (by norm_num) (by norm_num) hi _ (D ⟨i, hi⟩) ?_ (fun _ _ _ => rfl) (by intro c; simpa using h0 c)) ?_
    · rintro j hj ⟨ans, t⟩
      refine ⟨weightV ((((t.set 0 (A[i][0] &&& T[j][0])).set 1 (A[i][1] &&& T[j][1])).set 2 (A[i][2] &&& T[j][2])).set 3 (A[i][3] &&& T[j][3])), ((((t.set 0 (A[i][0] &&& T[j][0])).set 1 (A[i][1] &&& T[j][1])).set 2 (A[i][2] &&& T[j][2])).set 3 (A[i][3] &&& T[j][3])), ?_, ?_⟩
      · dsimp only
        rw [rd2_ok _ _ _ hi (by omega : 0 < 4), C_pure_bind, rd2_ok _ _ _ hj (by omega : 0 < 4), C_pure_bind, wr_ok _ _ _ (by omega : 0 < 4), C_pure_bind, rd2_ok _ _ _ hi (by omega : 1 < 4), C_pure_bind, rd2_ok _ _ _ hj (by omega : 1 < 4), C_pure_bind, wr_ok _ _ _ (by omega : 1 < 4), C_pure_bind, rd2_ok _ _ _ hi (by omega : 2 < 4), C_pure_bind, rd2_ok _ _ _ hj (by omega : 2 < 4), C_pure_bind, wr_ok _ _ _ (by omega : 2 < 4), C_pure_bind, rd2_ok _ _ _ hi (by omega : 3 < 4), C_pure_bind, rd2_ok _ _ _ hj (by omega : 3 < 4), C_pure_bind, wr_ok _ _ _ (by omega : 3 < 4), C_pure_bind, xorU256_eq, C_pure_bind]; rfl
      · exact (dotW A[i] T[j] _ (andSet4 t _ _)).trans (key j hj)
    intro s1 hs1
    refine Ok.bind (mulMatW (l := 4) (n := 256) (p := 1) (M0 := s0.1) (lo := 64) (up := 128) (by norm_num) (by omega) (by norm_num) (by norm_num) hi _ (D ⟨i, hi⟩) ?_ hs1.1 hs1.2) ?_
    · rintro j hj ⟨ans, t⟩
      refine ⟨weightV ((((t.set 0 (A[i][0] &&& T[j][0])).set 1 (A[i][1] &&& T[j][1])).set 2 (A[i][2] &&& T[j][2])).set 3 (A[i][3] &&& T[j][3])), ((((t.set 0 (A[i][0] &&& T[j][0])).set 1 (A[i][1] &&& T[j][1])).set 2 (A[i][2] &&& T[j][2])).set 3 (A[i][3] &&& T[j][3])), ?_, ?_⟩
      · dsimp only
        rw [rd2_ok _ _ _ hi (by omega : 0 < 4), C_pure_bind, rd2_ok _ _ _ hj (by omega : 0 < 4), C_pure_bind, wr_ok _ _ _ (by omega : 0 < 4), C_pure_bind, rd2_ok _ _ _ hi (by omega : 1 < 4), C_pure_bind, rd2_ok _ _ _ hj (by omega : 1 < 4), C_pure_bind, wr_ok _ _ _ (by omega : 1 < 4), C_pure_bind, rd2_ok _ _ _ hi (by omega : 2 < 4), C_pure_bind, rd2_ok _ _ _ hj (by omega : 2 < 4), C_pure_bind, wr_ok _ _ _ (by omega : 2 < 4), C_pure_bind, rd2_ok _ _ _ hi (by omega : 3 < 4), C_pure_bind, rd2_ok _ _ _ hj (by omega : 3 < 4), C_pure_bind, wr_ok _ _ _ (by omega : 3 < 4), C_pure_bind, xorU256_eq, C_pure_bind]
      · exact (dotW A[i] T[j] _ (andSet4 t _ _)).trans (key j hj)
    intro s2 hs2
    refine Ok.bind (mulMatW (l := 4) (n := 256) (p := 2) (M0 := s0.1) (lo := 128) (up := 192) (by norm_num) (by omega) (by norm_num) (by norm_num) hi _ (D ⟨i, hi⟩) ?_ hs2.1 hs2.2) ?_
    · rintro j hj ⟨ans, t⟩
      refine ⟨weightV ((((t.set 0 (A[i][0] &&& T[j][0])).set 1 (A[i][1] &&& T[j][1])).set 2 (A[i][2] &&& T[j][2])).set 3 (A[i][3] &&& T[j][3])), ((((t.set 0 (A[i][0] &&& T[j][0])).set 1 (A[i][1] &&& T[j][1])).set 2 (A[i][2] &&& T[j][2])).set 3 (A[i][3] &&& T[j][3])), ?_, ?_⟩
      · dsimp only
        rw [rd2_ok _ _ _ hi (by omega : 0 < 4), C_pure_bind, rd2_ok _ _ _ hj (by omega : 0 < 4), C_pure_bind, wr_ok _ _ _ (by omega : 0 < 4), C_pure_bind, rd2_ok _ _ _ hi (by omega : 1 < 4), C_pure_bind, rd2_ok _ _ _ hj (by omega : 1 < 4), C_pure_bind, wr_ok _ _ _ (by omega : 1 < 4), C_pure_bind, rd2_ok _ _ _ hi (by omega : 2 < 4), C_pure_bind, rd2_ok _ _ _ hj (by omega : 2 < 4), C_pure_bind, wr_ok _ _ _ (by omega : 2 < 4), C_pure_bind, rd2_ok _ _ _ hi (by omega : 3 < 4), C_pure_bind, rd2_ok _ _ _ hj (by omega : 3 < 4), C_pure_bind, wr_ok _ _ _ (by omega : 3 < 4), C_pure_bind, xorU256_eq, C_pure_bind]
      · exact (dotW A[i] T[j] _ (andSet4 t _ _)).trans (key j hj)
    intro s3 hs3
    refine (mulMatW (l := 4) (n := 256) (p := 3) (M0 := s0.1) (lo := 192) (up := 256) (by norm_num) (by omega) (by norm_num) (by norm_num) hi _ (D ⟨i, hi⟩) ?_ hs3.1 hs3.2).mono ?_
    · rintro j hj ⟨ans, t⟩
      refine ⟨weightV ((((t.set 0 (A[i][0] &&& T[j][0])).set 1 (A[i][1] &&& T[j][1])).set 2 (A[i][2] &&& T[j][2])).set 3 (A[i][3] &&& T[j][3])), ((((t.set 0 (A[i][0] &&& T[j][0])).set 1 (A[i][1] &&& T[j][1])).set 2 (A[i][2] &&& T[j][2])).set 3 (A[i][3] &&& T[j][3])), ?_, ?_⟩
      · dsimp only
        rw [rd2_ok _ _ _ hi (by omega : 0 < 4), C_pure_bind, rd2_ok _ _ _ hj (by omega : 0 < 4), C_pure_bind, wr_ok _ _ _ (by omega : 0 < 4), C_pure_bind, rd2_ok _ _ _ hi (by omega : 1 < 4), C_pure_bind, rd2_ok _ _ _ hj (by omega : 1 < 4), C_pure_bind, wr_ok _ _ _ (by omega : 1 < 4), C_pure_bind, rd2_ok _ _ _ hi (by omega : 2 < 4), C_pure_bind, rd2_ok _ _ _ hj (by omega : 2 < 4), C_pure_bind, wr_ok _ _ _ (by omega : 2 < 4), C_pure_bind, rd2_ok _ _ _ hi (by omega : 3 < 4), C_pure_bind, rd2_ok _ _ _ hj (by omega : 3 < 4), C_pure_bind, wr_ok _ _ _ (by omega : 3 < 4), C_pure_bind, xorU256_eq, C_pure_bind]
      · exact (dotW A[i] T[j] _ (andSet4 t _ _)).trans (key j hj)
    intro s4 hs4
    exact ⟨hs4.1, fun c => (hs4.2 c).trans (if_pos c.2)⟩
  · intro s hs
    rw [Ok.pure_iff]
    exact hs

end WB
