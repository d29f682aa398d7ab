import Verif.Proof.BasisLoop
import Verif.Proof.MulAll
import Verif.Prop.C06
import Verif.Prop.Examples

/-!
# C59 — the basis matrix method

`/repo/test/BasisMatrixMethod_test.c`.  Generated by `tools/gen_basis.py`.  `sel T r` is `T[r % 16]`; the C
library's generator `lc` is arbitrary.
-/
namespace WB
open Matrix basis

/-- Some `rand()`. -/
def exRand : BitVec 32 → Nat → Nat := fun s k => s.toNat + 7 * k * k + k / 3

def exLW : LW := ⟨exWorld, 1, 0⟩

theorem basisInvTMatM8 (env : Env) (lc : BitVec 32 → Nat → Nat) (Mat : M8) (s : LW)
    (h : s.w.randseed ≠ 0x7fffffff#32) : OkB (basis.InvTMatM8 env lc Mat) s (fun A _ => mat8 A = ((List.range 16).map fun i => mat8 (sel MatrixM8 (lc (s.w.randseed ^^^ s.w.clock s.w.now) i))).prod) := by
  obtain ⟨I, hI, h1⟩ := C06_identityM8 (env.junkArr 8 8)
  unfold basis.InvTMatM8
  rw [OkB.bind_iff, OkB.lift_iff, hI, Ok.ok_iff, OkB.bind_iff]
  refine OkB.reseed h ?_
  refine OkB.bind (prod_loop (m := mat8) (mul := fun A B => MatMulMatM8 env A B A) (fun A B => MatMulMatM8_ok env A B A) MatrixM8 lc I s.seeded) ?_
  rintro A s' ⟨hA, rfl⟩
  rw [OkB.lift_iff, copyM8_eq, Ok.ok_iff, hA, h1, one_mul]
  simp [LW.seeded]

theorem basisMatrixpairM8 (env : Env) (lc : BitVec 32 → Nat → Nat) (Mat Mat_inv : M8) (s : LW)
    (h : s.w.randseed ≠ 0x7fffffff#32) : OkB (basis.MatrixpairM8 env lc Mat Mat_inv) s (fun p _ =>
      mat8 p.1 = ((List.range 16).map fun i => mat8 (sel MatrixM8 (lc (s.w.randseed ^^^ s.w.clock s.w.now) i))).prod ∧
      mat8 p.2 = ((List.range 16).reverse.map fun i => mat8 (sel MatrixM8_inv (lc (s.w.randseed ^^^ s.w.clock s.w.now) i))).prod) := by
  obtain ⟨I, hI, h1⟩ := C06_identityM8 (env.junkArr 8 8)
  unfold basis.MatrixpairM8
  rw [OkB.bind_iff, OkB.lift_iff, hI, Ok.ok_iff, OkB.bind_iff, OkB.lift_iff, Ok.ok_iff, OkB.bind_iff]
  refine OkB.reseed h ?_
  refine OkB.bind (pair_loop (m := mat8) (mul := fun A B => MatMulMatM8 env A B A) (fun A B => MatMulMatM8_ok env A B A) MatrixM8 lc I _ s.seeded) ?_
  rintro ⟨A, fl⟩ s' ⟨hA, hf, rfl⟩
  simp only at hA hf ⊢
  rw [OkB.bind_iff, OkB.lift_iff]
  refine (down_loop (m := mat8) (mul := fun A B => MatMulMatM8 env A B A) (fun A B => MatMulMatM8_ok env A B A) _ (fun i => sel MatrixM8_inv (lc (s.w.randseed ^^^ s.w.clock s.w.now) i)) ?_ I).mono ?_
  · intro i hi B
    rw [rd_ok _ _ hi, C_pure_bind, hf i hi, rd_sel, C_pure_bind]
    simp only [LW.seeded, Nat.zero_add]
  · intro B hB
    rw [OkB.bind_iff, OkB.lift_iff, copyM8_eq, Ok.ok_iff, OkB.bind_iff, OkB.lift_iff, copyM8_eq, Ok.ok_iff,
      OkB.pure_iff]
    refine ⟨?_, ?_⟩
    · rw [hA, h1, one_mul]
      simp [LW.seeded]
    · rw [hB, h1, one_mul]

/-- C59: `TrailM8` stores 16 indices less than 16 in row `k` and leaves the other rows alone. -/
theorem C59_TrailM8 (lc : BitVec 32 → Nat → Nat) (TM : Vector (Vector (BitVec 8) 16) 100) (k : Nat)
    (hk : k < 100) (s : LW) : ∃ TM' s', basis.TrailM8 lc TM k s = .ok (TM', s') ∧
      (∀ j (hj : j < 100), j ≠ k → TM'[j] = TM[j]) ∧
      (∀ i (hi : i < 16), (TM'[k][i]).toNat = lc s.seed (s.cnt + i) % 16) ∧
      s' = { s with cnt := s.cnt + 16 } := by
  obtain ⟨⟨TM', s'⟩, h1, h2⟩ := trail_loop lc TM k hk s
  exact ⟨TM', s', h1, h2⟩

theorem basisInvSMatM8 (env : Env) (TM : Vector (Vector (BitVec 8) 16) 100) (Mat_inv : M8) (k : Nat)
    (hk : k < 100) (ht : ∀ i (hi : i < 16), (TM[k][i]).toNat < 16) :
    Ok (basis.InvSMatM8 env TM Mat_inv k) (fun B =>
      mat8 B = ((List.range 16).reverse.map fun i => mat8 (sel MatrixM8_inv (TM[k].toList.getD i 0).toNat)).prod) := by
  obtain ⟨I, hI, h1⟩ := C06_identityM8 (env.junkArr 8 8)
  unfold basis.InvSMatM8
  rw [hI, C_pure_bind]
  refine Ok.bind (down_loop (m := mat8) (mul := fun A B => MatMulMatM8 env A B A) (fun A B => MatMulMatM8_ok env A B A) _
    (fun i => sel MatrixM8_inv (TM[k].toList.getD i 0).toNat) ?_ I) ?_
  · intro i hi B
    have e : TM[k].toList.getD i 0 = TM[k][i] := by
      rw [List.getD_eq_getElem?_getD, List.getElem?_eq_getElem (by simpa using hi)]
      simp
    rw [rd2_ok _ _ _ hk hi, C_pure_bind, e, ← Nat.mod_eq_of_lt (ht i hi), rd_sel, C_pure_bind,
      Nat.mod_eq_of_lt (ht i hi)]
  · intro B hB
    rw [copyM8_eq, Ok.ok_iff, hB, h1, one_mul]

/-- C59: the matrix stored by `InvTMatM8` is invertible, whatever `rand()` does; it is the product of the
basis matrices drawn. -/
theorem C59_InvTMatM8 (env : Env) (lc : BitVec 32 → Nat → Nat) (Mat : M8) (s : LW)
    (h : s.w.randseed ≠ 0x7fffffff#32) :
    ∃ A s', basis.InvTMatM8 env lc Mat s = .ok (A, s') ∧ IsUnit (mat8 A) ∧
      mat8 A = ((List.range 16).map fun i => mat8 (sel MatrixM8 (lc (s.w.randseed ^^^ s.w.clock s.w.now) i))).prod := by
  obtain ⟨⟨A, s'⟩, h1, h2⟩ := basisInvTMatM8 env lc Mat s h
  refine ⟨A, s', h1, ?_, h2⟩
  simp only at h2
  rw [h2, isUnit_prod]
  intro X hX
  obtain ⟨i, -, rfl⟩ := List.mem_map.1 hX
  exact ⟨⟨_, _, inv8 _ _, mat_comm (inv8 _ (Nat.mod_lt _ (by norm_num)))⟩, rfl⟩

/-- C59: `MatrixpairM8` stores a matrix and its inverse, whatever `rand()` does. -/
theorem C59_MatrixpairM8 (env : Env) (lc : BitVec 32 → Nat → Nat) (Mat Mat_inv : M8) (s : LW)
    (h : s.w.randseed ≠ 0x7fffffff#32) :
    ∃ A B s', basis.MatrixpairM8 env lc Mat Mat_inv s = .ok ((A, B), s') ∧
      mat8 A * mat8 B = 1 ∧ mat8 B * mat8 A = 1 ∧
      mat8 A = ((List.range 16).map fun i => mat8 (sel MatrixM8 (lc (s.w.randseed ^^^ s.w.clock s.w.now) i))).prod := by
  obtain ⟨⟨⟨A, B⟩, s'⟩, h1, h2, h3⟩ := basisMatrixpairM8 env lc Mat Mat_inv s h
  simp only at h2 h3
  have hAB : mat8 A * mat8 B = 1 := by
    rw [h2, h3]
    exact prod_inv _ _ _ (fun i _ => inv8 _ _)
  exact ⟨A, B, s', h1, hAB, mat_comm hAB, h2⟩

/-- C59: `InvSMatM8` stores the inverse of the product of the basis matrices on the trail. -/
theorem C59_InvSMatM8 (env : Env) (TM : Vector (Vector (BitVec 8) 16) 100) (Mat_inv : M8) (k : Nat)
    (hk : k < 100) (ht : ∀ i (hi : i < 16), (TM[k][i]).toNat < 16) :
    ∃ B, basis.InvSMatM8 env TM Mat_inv k = .ok B ∧
      ((List.range 16).map fun i => mat8 (sel MatrixM8 (TM[k].toList.getD i 0).toNat)).prod * mat8 B = 1 ∧
      mat8 B * ((List.range 16).map fun i => mat8 (sel MatrixM8 (TM[k].toList.getD i 0).toNat)).prod = 1 := by
  obtain ⟨B, h1, h2⟩ := basisInvSMatM8 env TM Mat_inv k hk ht
  have hAB : ((List.range 16).map fun i => mat8 (sel MatrixM8 (TM[k].toList.getD i 0).toNat)).prod * mat8 B = 1 := by
    rw [h2]
    exact prod_inv _ _ _ (fun i _ => inv8 _ _)
  exact ⟨B, h1, hAB, mat_comm hAB⟩

example : ∃ A s', basis.InvTMatM8 exEnv exRand exB8 exLW = .ok (A, s') ∧ IsUnit (mat8 A) := by
  obtain ⟨A, s', h, h1, -⟩ := C59_InvTMatM8 exEnv exRand exB8 exLW (by decide)
  exact ⟨A, s', h, h1⟩
example : ∃ A B s', basis.MatrixpairM8 exEnv exRand exB8 exB8 exLW = .ok ((A, B), s') ∧
    mat8 A * mat8 B = 1 := by
  obtain ⟨A, B, s', h, h1, -⟩ := C59_MatrixpairM8 exEnv exRand exB8 exB8 exLW (by decide)
  exact ⟨A, B, s', h, h1⟩
example : ∃ B, basis.InvSMatM8 exEnv (Vector.replicate 100 (Vector.replicate 16 7)) exB8 99 = .ok B := by
  obtain ⟨B, h, -⟩ := C59_InvSMatM8 exEnv (Vector.replicate 100 (Vector.replicate 16 7)) exB8 99
    (by norm_num) (fun i hi => by rw [Vector.getElem_replicate, Vector.getElem_replicate]; decide)
  exact ⟨B, h⟩

/-- C59: with the largest `int` in `randseed` the increment overflows. -/
theorem C59_M8_overflow (env : Env) (lc : BitVec 32 → Nat → Nat) (Mat Mat_inv : M8) (s : LW)
    (h : s.w.randseed = 0x7fffffff#32) : basis.InvTMatM8 env lc Mat s = .error .overflow ∧
      basis.MatrixpairM8 env lc Mat Mat_inv s = .error .overflow := by
  obtain ⟨I, hI, -⟩ := C06_identityM8 (env.junkArr 8 8)
  have hl : liftB (identityM8 (env.junkArr 8 8)) s = .ok (I, s) := by rw [hI]; rfl
  constructor
  · unfold basis.InvTMatM8
    rw [BM_bind_run hl]
    exact BM_bind_error (srandReseed_overflow s h)
  · unfold basis.MatrixpairM8
    rw [BM_bind_run hl, BM_bind_run hl]
    exact BM_bind_error (srandReseed_overflow s h)

example : basis.InvTMatM8 exEnv exRand exB8 { exLW with w := { exWorld with randseed := 0x7fffffff } } =
    .error .overflow := (C59_M8_overflow _ _ _ exB8 _ rfl).1

theorem basisInvTMatM16 (env : Env) (lc : BitVec 32 → Nat → Nat) (Mat : M16) (s : LW)
    (h : s.w.randseed ≠ 0x7fffffff#32) : OkB (basis.InvTMatM16 env lc Mat) s (fun A _ => mat16 A = ((List.range 64).map fun i => mat16 (sel MatrixM16 (lc (s.w.randseed ^^^ s.w.clock s.w.now) i))).prod) := by
  obtain ⟨I, hI, h1⟩ := C06_identityM16 (env.junkArr 16 16)
  unfold basis.InvTMatM16
  rw [OkB.bind_iff, OkB.lift_iff, hI, Ok.ok_iff, OkB.bind_iff]
  refine OkB.reseed h ?_
  refine OkB.bind (prod_loop (m := mat16) (mul := fun A B => MatMulMatM16 env A B A) (fun A B => MatMulMatM16_ok env A B A) MatrixM16 lc I s.seeded) ?_
  rintro A s' ⟨hA, rfl⟩
  rw [OkB.lift_iff, copyM16_eq, Ok.ok_iff, hA, h1, one_mul]
  simp [LW.seeded]

theorem basisMatrixpairM16 (env : Env) (lc : BitVec 32 → Nat → Nat) (Mat Mat_inv : M16) (s : LW)
    (h : s.w.randseed ≠ 0x7fffffff#32) : OkB (basis.MatrixpairM16 env lc Mat Mat_inv) s (fun p _ =>
      mat16 p.1 = ((List.range 64).map fun i => mat16 (sel MatrixM16 (lc (s.w.randseed ^^^ s.w.clock s.w.now) i))).prod ∧
      mat16 p.2 = ((List.range 64).reverse.map fun i => mat16 (sel MatrixM16_inv (lc (s.w.randseed ^^^ s.w.clock s.w.now) i))).prod) := by
  obtain ⟨I, hI, h1⟩ := C06_identityM16 (env.junkArr 16 16)
  unfold basis.MatrixpairM16
  rw [OkB.bind_iff, OkB.lift_iff, hI, Ok.ok_iff, OkB.bind_iff, OkB.lift_iff, Ok.ok_iff, OkB.bind_iff]
  refine OkB.reseed h ?_
  refine OkB.bind (pair_loop (m := mat16) (mul := fun A B => MatMulMatM16 env A B A) (fun A B => MatMulMatM16_ok env A B A) MatrixM16 lc I _ s.seeded) ?_
  rintro ⟨A, fl⟩ s' ⟨hA, hf, rfl⟩
  simp only at hA hf ⊢
  rw [OkB.bind_iff, OkB.lift_iff]
  refine (down_loop (m := mat16) (mul := fun A B => MatMulMatM16 env A B A) (fun A B => MatMulMatM16_ok env A B A) _ (fun i => sel MatrixM16_inv (lc (s.w.randseed ^^^ s.w.clock s.w.now) i)) ?_ I).mono ?_
  · intro i hi B
    rw [rd_ok _ _ hi, C_pure_bind, hf i hi, rd_sel, C_pure_bind]
    simp only [LW.seeded, Nat.zero_add]
  · intro B hB
    rw [OkB.bind_iff, OkB.lift_iff, copyM16_eq, Ok.ok_iff, OkB.bind_iff, OkB.lift_iff, copyM16_eq, Ok.ok_iff,
      OkB.pure_iff]
    refine ⟨?_, ?_⟩
    · rw [hA, h1, one_mul]
      simp [LW.seeded]
    · rw [hB, h1, one_mul]

/-- C59: `TrailM16` stores 64 indices less than 16 in row `k` and leaves the other rows alone. -/
theorem C59_TrailM16 (lc : BitVec 32 → Nat → Nat) (TM : Vector (Vector (BitVec 8) 64) 100) (k : Nat)
    (hk : k < 100) (s : LW) : ∃ TM' s', basis.TrailM16 lc TM k s = .ok (TM', s') ∧
      (∀ j (hj : j < 100), j ≠ k → TM'[j] = TM[j]) ∧
      (∀ i (hi : i < 64), (TM'[k][i]).toNat = lc s.seed (s.cnt + i) % 16) ∧
      s' = { s with cnt := s.cnt + 64 } := by
  obtain ⟨⟨TM', s'⟩, h1, h2⟩ := trail_loop lc TM k hk s
  exact ⟨TM', s', h1, h2⟩

theorem basisInvSMatM16 (env : Env) (TM : Vector (Vector (BitVec 8) 64) 100) (Mat_inv : M16) (k : Nat)
    (hk : k < 100) (ht : ∀ i (hi : i < 64), (TM[k][i]).toNat < 16) :
    Ok (basis.InvSMatM16 env TM Mat_inv k) (fun B =>
      mat16 B = ((List.range 64).reverse.map fun i => mat16 (sel MatrixM16_inv (TM[k].toList.getD i 0).toNat)).prod) := by
  obtain ⟨I, hI, h1⟩ := C06_identityM16 (env.junkArr 16 16)
  unfold basis.InvSMatM16
  rw [hI, C_pure_bind]
  refine Ok.bind (down_loop (m := mat16) (mul := fun A B => MatMulMatM16 env A B A) (fun A B => MatMulMatM16_ok env A B A) _
    (fun i => sel MatrixM16_inv (TM[k].toList.getD i 0).toNat) ?_ I) ?_
  · intro i hi B
    have e : TM[k].toList.getD i 0 = TM[k][i] := by
      rw [List.getD_eq_getElem?_getD, List.getElem?_eq_getElem (by simpa using hi)]
      simp
    rw [rd2_ok _ _ _ hk hi, C_pure_bind, e, ← Nat.mod_eq_of_lt (ht i hi), rd_sel, C_pure_bind,
      Nat.mod_eq_of_lt (ht i hi)]
  · intro B hB
    rw [copyM16_eq, Ok.ok_iff, hB, h1, one_mul]

/-- C59: the matrix stored by `InvTMatM16` is invertible, whatever `rand()` does; it is the product of the
basis matrices drawn. -/
theorem C59_InvTMatM16 (env : Env) (lc : BitVec 32 → Nat → Nat) (Mat : M16) (s : LW)
    (h : s.w.randseed ≠ 0x7fffffff#32) :
    ∃ A s', basis.InvTMatM16 env lc Mat s = .ok (A, s') ∧ IsUnit (mat16 A) ∧
      mat16 A = ((List.range 64).map fun i => mat16 (sel MatrixM16 (lc (s.w.randseed ^^^ s.w.clock s.w.now) i))).prod := by
  obtain ⟨⟨A, s'⟩, h1, h2⟩ := basisInvTMatM16 env lc Mat s h
  refine ⟨A, s', h1, ?_, h2⟩
  simp only at h2
  rw [h2, isUnit_prod]
  intro X hX
  obtain ⟨i, -, rfl⟩ := List.mem_map.1 hX
  exact ⟨⟨_, _, inv16 _ _, mat_comm (inv16 _ (Nat.mod_lt _ (by norm_num)))⟩, rfl⟩

/-- C59: `MatrixpairM16` stores a matrix and its inverse, whatever `rand()` does. -/
theorem C59_MatrixpairM16 (env : Env) (lc : BitVec 32 → Nat → Nat) (Mat Mat_inv : M16) (s : LW)
    (h : s.w.randseed ≠ 0x7fffffff#32) :
    ∃ A B s', basis.MatrixpairM16 env lc Mat Mat_inv s = .ok ((A, B), s') ∧
      mat16 A * mat16 B = 1 ∧ mat16 B * mat16 A = 1 ∧
      mat16 A = ((List.range 64).map fun i => mat16 (sel MatrixM16 (lc (s.w.randseed ^^^ s.w.clock s.w.now) i))).prod := by
  obtain ⟨⟨⟨A, B⟩, s'⟩, h1, h2, h3⟩ := basisMatrixpairM16 env lc Mat Mat_inv s h
  simp only at h2 h3
  have hAB : mat16 A * mat16 B = 1 := by
    rw [h2, h3]
    exact prod_inv _ _ _ (fun i _ => inv16 _ _)
  exact ⟨A, B, s', h1, hAB, mat_comm hAB, h2⟩

/-- C59: `InvSMatM16` stores the inverse of the product of the basis matrices on the trail. -/
theorem C59_InvSMatM16 (env : Env) (TM : Vector (Vector (BitVec 8) 64) 100) (Mat_inv : M16) (k : Nat)
    (hk : k < 100) (ht : ∀ i (hi : i < 64), (TM[k][i]).toNat < 16) :
    ∃ B, basis.InvSMatM16 env TM Mat_inv k = .ok B ∧
      ((List.range 64).map fun i => mat16 (sel MatrixM16 (TM[k].toList.getD i 0).toNat)).prod * mat16 B = 1 ∧
      mat16 B * ((List.range 64).map fun i => mat16 (sel MatrixM16 (TM[k].toList.getD i 0).toNat)).prod = 1 := by
  obtain ⟨B, h1, h2⟩ := basisInvSMatM16 env TM Mat_inv k hk ht
  have hAB : ((List.range 64).map fun i => mat16 (sel MatrixM16 (TM[k].toList.getD i 0).toNat)).prod * mat16 B = 1 := by
    rw [h2]
    exact prod_inv _ _ _ (fun i _ => inv16 _ _)
  exact ⟨B, h1, hAB, mat_comm hAB⟩

example : ∃ A s', basis.InvTMatM16 exEnv exRand exB16 exLW = .ok (A, s') ∧ IsUnit (mat16 A) := by
  obtain ⟨A, s', h, h1, -⟩ := C59_InvTMatM16 exEnv exRand exB16 exLW (by decide)
  exact ⟨A, s', h, h1⟩
example : ∃ A B s', basis.MatrixpairM16 exEnv exRand exB16 exB16 exLW = .ok ((A, B), s') ∧
    mat16 A * mat16 B = 1 := by
  obtain ⟨A, B, s', h, h1, -⟩ := C59_MatrixpairM16 exEnv exRand exB16 exB16 exLW (by decide)
  exact ⟨A, B, s', h, h1⟩
example : ∃ B, basis.InvSMatM16 exEnv (Vector.replicate 100 (Vector.replicate 64 7)) exB16 99 = .ok B := by
  obtain ⟨B, h, -⟩ := C59_InvSMatM16 exEnv (Vector.replicate 100 (Vector.replicate 64 7)) exB16 99
    (by norm_num) (fun i hi => by rw [Vector.getElem_replicate, Vector.getElem_replicate]; decide)
  exact ⟨B, h⟩

/-- C59: with the largest `int` in `randseed` the increment overflows. -/
theorem C59_M16_overflow (env : Env) (lc : BitVec 32 → Nat → Nat) (Mat Mat_inv : M16) (s : LW)
    (h : s.w.randseed = 0x7fffffff#32) : basis.InvTMatM16 env lc Mat s = .error .overflow ∧
      basis.MatrixpairM16 env lc Mat Mat_inv s = .error .overflow := by
  obtain ⟨I, hI, -⟩ := C06_identityM16 (env.junkArr 16 16)
  have hl : liftB (identityM16 (env.junkArr 16 16)) s = .ok (I, s) := by rw [hI]; rfl
  constructor
  · unfold basis.InvTMatM16
    rw [BM_bind_run hl]
    exact BM_bind_error (srandReseed_overflow s h)
  · unfold basis.MatrixpairM16
    rw [BM_bind_run hl, BM_bind_run hl]
    exact BM_bind_error (srandReseed_overflow s h)

example : basis.InvTMatM16 exEnv exRand exB16 { exLW with w := { exWorld with randseed := 0x7fffffff } } =
    .error .overflow := (C59_M16_overflow _ _ _ exB16 _ rfl).1

theorem basisInvTMatM32 (env : Env) (lc : BitVec 32 → Nat → Nat) (Mat : M32) (s : LW)
    (h : s.w.randseed ≠ 0x7fffffff#32) : OkB (basis.InvTMatM32 env lc Mat) s (fun A _ => mat32 A = ((List.range 256).map fun i => mat32 (sel MatrixM32 (lc (s.w.randseed ^^^ s.w.clock s.w.now) i))).prod) := by
  obtain ⟨I, hI, h1⟩ := C06_identityM32 (env.junkArr 32 32)
  unfold basis.InvTMatM32
  rw [OkB.bind_iff, OkB.lift_iff, hI, Ok.ok_iff, OkB.bind_iff]
  refine OkB.reseed h ?_
  refine OkB.bind (prod_loop (m := mat32) (mul := fun A B => MatMulMatM32 env A B A) (fun A B => MatMulMatM32_ok env A B A) MatrixM32 lc I s.seeded) ?_
  rintro A s' ⟨hA, rfl⟩
  rw [OkB.lift_iff, copyM32_eq, Ok.ok_iff, hA, h1, one_mul]
  simp [LW.seeded]

theorem basisMatrixpairM32 (env : Env) (lc : BitVec 32 → Nat → Nat) (Mat Mat_inv : M32) (s : LW)
    (h : s.w.randseed ≠ 0x7fffffff#32) : OkB (basis.MatrixpairM32 env lc Mat Mat_inv) s (fun p _ =>
      mat32 p.1 = ((List.range 256).map fun i => mat32 (sel MatrixM32 (lc (s.w.randseed ^^^ s.w.clock s.w.now) i))).prod ∧
      mat32 p.2 = ((List.range 256).reverse.map fun i => mat32 (sel MatrixM32_inv (lc (s.w.randseed ^^^ s.w.clock s.w.now) i))).prod) := by
  obtain ⟨I, hI, h1⟩ := C06_identityM32 (env.junkArr 32 32)
  unfold basis.MatrixpairM32
  rw [OkB.bind_iff, OkB.lift_iff, hI, Ok.ok_iff, OkB.bind_iff, OkB.lift_iff, Ok.ok_iff, OkB.bind_iff]
  refine OkB.reseed h ?_
  refine OkB.bind (pair_loop (m := mat32) (mul := fun A B => MatMulMatM32 env A B A) (fun A B => MatMulMatM32_ok env A B A) MatrixM32 lc I _ s.seeded) ?_
  rintro ⟨A, fl⟩ s' ⟨hA, hf, rfl⟩
  simp only at hA hf ⊢
  rw [OkB.bind_iff, OkB.lift_iff]
  refine (down_loop (m := mat32) (mul := fun A B => MatMulMatM32 env A B A) (fun A B => MatMulMatM32_ok env A B A) _ (fun i => sel MatrixM32_inv (lc (s.w.randseed ^^^ s.w.clock s.w.now) i)) ?_ I).mono ?_
  · intro i hi B
    rw [rd_ok _ _ hi, C_pure_bind, hf i hi, rd_sel, C_pure_bind]
    simp only [LW.seeded, Nat.zero_add]
  · intro B hB
    rw [OkB.bind_iff, OkB.lift_iff, copyM32_eq, Ok.ok_iff, OkB.bind_iff, OkB.lift_iff, copyM32_eq, Ok.ok_iff,
      OkB.pure_iff]
    refine ⟨?_, ?_⟩
    · rw [hA, h1, one_mul]
      simp [LW.seeded]
    · rw [hB, h1, one_mul]

/-- C59: `TrailM32` stores 256 indices less than 16 in row `k` and leaves the other rows alone. -/
theorem C59_TrailM32 (lc : BitVec 32 → Nat → Nat) (TM : Vector (Vector (BitVec 8) 256) 100) (k : Nat)
    (hk : k < 100) (s : LW) : ∃ TM' s', basis.TrailM32 lc TM k s = .ok (TM', s') ∧
      (∀ j (hj : j < 100), j ≠ k → TM'[j] = TM[j]) ∧
      (∀ i (hi : i < 256), (TM'[k][i]).toNat = lc s.seed (s.cnt + i) % 16) ∧
      s' = { s with cnt := s.cnt + 256 } := by
  obtain ⟨⟨TM', s'⟩, h1, h2⟩ := trail_loop lc TM k hk s
  exact ⟨TM', s', h1, h2⟩

theorem basisInvSMatM32 (env : Env) (TM : Vector (Vector (BitVec 8) 256) 100) (Mat_inv : M32) (k : Nat)
    (hk : k < 100) (ht : ∀ i (hi : i < 256), (TM[k][i]).toNat < 16) :
    Ok (basis.InvSMatM32 env TM Mat_inv k) (fun B =>
      mat32 B = ((List.range 256).reverse.map fun i => mat32 (sel MatrixM32_inv (TM[k].toList.getD i 0).toNat)).prod) := by
  obtain ⟨I, hI, h1⟩ := C06_identityM32 (env.junkArr 32 32)
  unfold basis.InvSMatM32
  rw [hI, C_pure_bind]
  refine Ok.bind (down_loop (m := mat32) (mul := fun A B => MatMulMatM32 env A B A) (fun A B => MatMulMatM32_ok env A B A) _
    (fun i => sel MatrixM32_inv (TM[k].toList.getD i 0).toNat) ?_ I) ?_
  · intro i hi B
    have e : TM[k].toList.getD i 0 = TM[k][i] := by
      rw [List.getD_eq_getElem?_getD, List.getElem?_eq_getElem (by simpa using hi)]
      simp
    rw [rd2_ok _ _ _ hk hi, C_pure_bind, e, ← Nat.mod_eq_of_lt (ht i hi), rd_sel, C_pure_bind,
      Nat.mod_eq_of_lt (ht i hi)]
  · intro B hB
    rw [copyM32_eq, Ok.ok_iff, hB, h1, one_mul]

/-- C59: the matrix stored by `InvTMatM32` is invertible, whatever `rand()` does; it is the product of the
basis matrices drawn. -/
theorem C59_InvTMatM32 (env : Env) (lc : BitVec 32 → Nat → Nat) (Mat : M32) (s : LW)
    (h : s.w.randseed ≠ 0x7fffffff#32) :
    ∃ A s', basis.InvTMatM32 env lc Mat s = .ok (A, s') ∧ IsUnit (mat32 A) ∧
      mat32 A = ((List.range 256).map fun i => mat32 (sel MatrixM32 (lc (s.w.randseed ^^^ s.w.clock s.w.now) i))).prod := by
  obtain ⟨⟨A, s'⟩, h1, h2⟩ := basisInvTMatM32 env lc Mat s h
  refine ⟨A, s', h1, ?_, h2⟩
  simp only at h2
  rw [h2, isUnit_prod]
  intro X hX
  obtain ⟨i, -, rfl⟩ := List.mem_map.1 hX
  exact ⟨⟨_, _, inv32 _ _, mat_comm (inv32 _ (Nat.mod_lt _ (by norm_num)))⟩, rfl⟩

/-- C59: `MatrixpairM32` stores a matrix and its inverse, whatever `rand()` does. -/
theorem C59_MatrixpairM32 (env : Env) (lc : BitVec 32 → Nat → Nat) (Mat Mat_inv : M32) (s : LW)
    (h : s.w.randseed ≠ 0x7fffffff#32) :
    ∃ A B s', basis.MatrixpairM32 env lc Mat Mat_inv s = .ok ((A, B), s') ∧
      mat32 A * mat32 B = 1 ∧ mat32 B * mat32 A = 1 ∧
      mat32 A = ((List.range 256).map fun i => mat32 (sel MatrixM32 (lc (s.w.randseed ^^^ s.w.clock s.w.now) i))).prod := by
  obtain ⟨⟨⟨A, B⟩, s'⟩, h1, h2, h3⟩ := basisMatrixpairM32 env lc Mat Mat_inv s h
  simp only at h2 h3
  have hAB : mat32 A * mat32 B = 1 := by
    rw [h2, h3]
    exact prod_inv _ _ _ (fun i _ => inv32 _ _)
  exact ⟨A, B, s', h1, hAB, mat_comm hAB, h2⟩

/-- C59: `InvSMatM32` stores the inverse of the product of the basis matrices on the trail. -/
theorem C59_InvSMatM32 (env : Env) (TM : Vector (Vector (BitVec 8) 256) 100) (Mat_inv : M32) (k : Nat)
    (hk : k < 100) (ht : ∀ i (hi : i < 256), (TM[k][i]).toNat < 16) :
    ∃ B, basis.InvSMatM32 env TM Mat_inv k = .ok B ∧
      ((List.range 256).map fun i => mat32 (sel MatrixM32 (TM[k].toList.getD i 0).toNat)).prod * mat32 B = 1 ∧
      mat32 B * ((List.range 256).map fun i => mat32 (sel MatrixM32 (TM[k].toList.getD i 0).toNat)).prod = 1 := by
  obtain ⟨B, h1, h2⟩ := basisInvSMatM32 env TM Mat_inv k hk ht
  have hAB : ((List.range 256).map fun i => mat32 (sel MatrixM32 (TM[k].toList.getD i 0).toNat)).prod * mat32 B = 1 := by
    rw [h2]
    exact prod_inv _ _ _ (fun i _ => inv32 _ _)
  exact ⟨B, h1, hAB, mat_comm hAB⟩

example : ∃ A s', basis.InvTMatM32 exEnv exRand exB32 exLW = .ok (A, s') ∧ IsUnit (mat32 A) := by
  obtain ⟨A, s', h, h1, -⟩ := C59_InvTMatM32 exEnv exRand exB32 exLW (by decide)
  exact ⟨A, s', h, h1⟩
example : ∃ A B s', basis.MatrixpairM32 exEnv exRand exB32 exB32 exLW = .ok ((A, B), s') ∧
    mat32 A * mat32 B = 1 := by
  obtain ⟨A, B, s', h, h1, -⟩ := C59_MatrixpairM32 exEnv exRand exB32 exB32 exLW (by decide)
  exact ⟨A, B, s', h, h1⟩
example : ∃ B, basis.InvSMatM32 exEnv (Vector.replicate 100 (Vector.replicate 256 7)) exB32 99 = .ok B := by
  obtain ⟨B, h, -⟩ := C59_InvSMatM32 exEnv (Vector.replicate 100 (Vector.replicate 256 7)) exB32 99
    (by norm_num) (fun i hi => by rw [Vector.getElem_replicate, Vector.getElem_replicate]; decide)
  exact ⟨B, h⟩

/-- C59: with the largest `int` in `randseed` the increment overflows. -/
theorem C59_M32_overflow (env : Env) (lc : BitVec 32 → Nat → Nat) (Mat Mat_inv : M32) (s : LW)
    (h : s.w.randseed = 0x7fffffff#32) : basis.InvTMatM32 env lc Mat s = .error .overflow ∧
      basis.MatrixpairM32 env lc Mat Mat_inv s = .error .overflow := by
  obtain ⟨I, hI, -⟩ := C06_identityM32 (env.junkArr 32 32)
  have hl : liftB (identityM32 (env.junkArr 32 32)) s = .ok (I, s) := by rw [hI]; rfl
  constructor
  · unfold basis.InvTMatM32
    rw [BM_bind_run hl]
    exact BM_bind_error (srandReseed_overflow s h)
  · unfold basis.MatrixpairM32
    rw [BM_bind_run hl, BM_bind_run hl]
    exact BM_bind_error (srandReseed_overflow s h)

example : basis.InvTMatM32 exEnv exRand exB32 { exLW with w := { exWorld with randseed := 0x7fffffff } } =
    .error .overflow := (C59_M32_overflow _ _ _ exB32 _ rfl).1

theorem basisInvTMatM64 (env : Env) (lc : BitVec 32 → Nat → Nat) (Mat : M64) (s : LW)
    (h : s.w.randseed ≠ 0x7fffffff#32) : OkB (basis.InvTMatM64 env lc Mat) s (fun A _ => mat64 A = ((List.range 1024).map fun i => mat64 (sel MatrixM64 (lc (s.w.randseed ^^^ s.w.clock s.w.now) i))).prod) := by
  obtain ⟨I, hI, h1⟩ := C06_identityM64 (env.junkArr 64 64)
  unfold basis.InvTMatM64
  rw [OkB.bind_iff, OkB.lift_iff, hI, Ok.ok_iff, OkB.bind_iff]
  refine OkB.reseed h ?_
  refine OkB.bind (prod_loop (m := mat64) (mul := fun A B => MatMulMatM64 env A B A) (fun A B => MatMulMatM64_ok env A B A) MatrixM64 lc I s.seeded) ?_
  rintro A s' ⟨hA, rfl⟩
  rw [OkB.lift_iff, copyM64_eq, Ok.ok_iff, hA, h1, one_mul]
  simp [LW.seeded]

theorem basisMatrixpairM64 (env : Env) (lc : BitVec 32 → Nat → Nat) (Mat Mat_inv : M64) (s : LW)
    (h : s.w.randseed ≠ 0x7fffffff#32) : OkB (basis.MatrixpairM64 env lc Mat Mat_inv) s (fun p _ =>
      mat64 p.1 = ((List.range 1024).map fun i => mat64 (sel MatrixM64 (lc (s.w.randseed ^^^ s.w.clock s.w.now) i))).prod ∧
      mat64 p.2 = ((List.range 1024).reverse.map fun i => mat64 (sel MatrixM64_inv (lc (s.w.randseed ^^^ s.w.clock s.w.now) i))).prod) := by
  obtain ⟨I, hI, h1⟩ := C06_identityM64 (env.junkArr 64 64)
  unfold basis.MatrixpairM64
  rw [OkB.bind_iff, OkB.lift_iff, hI, Ok.ok_iff, OkB.bind_iff, OkB.lift_iff, Ok.ok_iff, OkB.bind_iff]
  refine OkB.reseed h ?_
  refine OkB.bind (pair_loop (m := mat64) (mul := fun A B => MatMulMatM64 env A B A) (fun A B => MatMulMatM64_ok env A B A) MatrixM64 lc I _ s.seeded) ?_
  rintro ⟨A, fl⟩ s' ⟨hA, hf, rfl⟩
  simp only at hA hf ⊢
  rw [OkB.bind_iff, OkB.lift_iff]
  refine (down_loop (m := mat64) (mul := fun A B => MatMulMatM64 env A B A) (fun A B => MatMulMatM64_ok env A B A) _ (fun i => sel MatrixM64_inv (lc (s.w.randseed ^^^ s.w.clock s.w.now) i)) ?_ I).mono ?_
  · intro i hi B
    rw [rd_ok _ _ hi, C_pure_bind, hf i hi, rd_sel, C_pure_bind]
    simp only [LW.seeded, Nat.zero_add]
  · intro B hB
    rw [OkB.bind_iff, OkB.lift_iff, copyM64_eq, Ok.ok_iff, OkB.bind_iff, OkB.lift_iff, copyM64_eq, Ok.ok_iff,
      OkB.pure_iff]
    refine ⟨?_, ?_⟩
    · rw [hA, h1, one_mul]
      simp [LW.seeded]
    · rw [hB, h1, one_mul]

/-- C59: `TrailM64` stores 1024 indices less than 16 in row `k` and leaves the other rows alone. -/
theorem C59_TrailM64 (lc : BitVec 32 → Nat → Nat) (TM : Vector (Vector (BitVec 8) 1024) 100) (k : Nat)
    (hk : k < 100) (s : LW) : ∃ TM' s', basis.TrailM64 lc TM k s = .ok (TM', s') ∧
      (∀ j (hj : j < 100), j ≠ k → TM'[j] = TM[j]) ∧
      (∀ i (hi : i < 1024), (TM'[k][i]).toNat = lc s.seed (s.cnt + i) % 16) ∧
      s' = { s with cnt := s.cnt + 1024 } := by
  obtain ⟨⟨TM', s'⟩, h1, h2⟩ := trail_loop lc TM k hk s
  exact ⟨TM', s', h1, h2⟩

theorem basisInvSMatM64 (env : Env) (TM : Vector (Vector (BitVec 8) 1024) 100) (Mat_inv : M64) (k : Nat)
    (hk : k < 100) (ht : ∀ i (hi : i < 1024), (TM[k][i]).toNat < 16) :
    Ok (basis.InvSMatM64 env TM Mat_inv k) (fun B =>
      mat64 B = ((List.range 1024).reverse.map fun i => mat64 (sel MatrixM64_inv (TM[k].toList.getD i 0).toNat)).prod) := by
  obtain ⟨I, hI, h1⟩ := C06_identityM64 (env.junkArr 64 64)
  unfold basis.InvSMatM64
  rw [hI, C_pure_bind]
  refine Ok.bind (down_loop (m := mat64) (mul := fun A B => MatMulMatM64 env A B A) (fun A B => MatMulMatM64_ok env A B A) _
    (fun i => sel MatrixM64_inv (TM[k].toList.getD i 0).toNat) ?_ I) ?_
  · intro i hi B
    have e : TM[k].toList.getD i 0 = TM[k][i] := by
      rw [List.getD_eq_getElem?_getD, List.getElem?_eq_getElem (by simpa using hi)]
      simp
    rw [rd2_ok _ _ _ hk hi, C_pure_bind, e, ← Nat.mod_eq_of_lt (ht i hi), rd_sel, C_pure_bind,
      Nat.mod_eq_of_lt (ht i hi)]
  · intro B hB
    rw [copyM64_eq, Ok.ok_iff, hB, h1, one_mul]

/-- C59: the matrix stored by `InvTMatM64` is invertible, whatever `rand()` does; it is the product of the
basis matrices drawn. -/
theorem C59_InvTMatM64 (env : Env) (lc : BitVec 32 → Nat → Nat) (Mat : M64) (s : LW)
    (h : s.w.randseed ≠ 0x7fffffff#32) :
    ∃ A s', basis.InvTMatM64 env lc Mat s = .ok (A, s') ∧ IsUnit (mat64 A) ∧
      mat64 A = ((List.range 1024).map fun i => mat64 (sel MatrixM64 (lc (s.w.randseed ^^^ s.w.clock s.w.now) i))).prod := by
  obtain ⟨⟨A, s'⟩, h1, h2⟩ := basisInvTMatM64 env lc Mat s h
  refine ⟨A, s', h1, ?_, h2⟩
  simp only at h2
  rw [h2, isUnit_prod]
  intro X hX
  obtain ⟨i, -, rfl⟩ := List.mem_map.1 hX
  exact ⟨⟨_, _, inv64 _ _, mat_comm (inv64 _ (Nat.mod_lt _ (by norm_num)))⟩, rfl⟩

/-- C59: `MatrixpairM64` stores a matrix and its inverse, whatever `rand()` does. -/
theorem C59_MatrixpairM64 (env : Env) (lc : BitVec 32 → Nat → Nat) (Mat Mat_inv : M64) (s : LW)
    (h : s.w.randseed ≠ 0x7fffffff#32) :
    ∃ A B s', basis.MatrixpairM64 env lc Mat Mat_inv s = .ok ((A, B), s') ∧
      mat64 A * mat64 B = 1 ∧ mat64 B * mat64 A = 1 ∧
      mat64 A = ((List.range 1024).map fun i => mat64 (sel MatrixM64 (lc (s.w.randseed ^^^ s.w.clock s.w.now) i))).prod := by
  obtain ⟨⟨⟨A, B⟩, s'⟩, h1, h2, h3⟩ := basisMatrixpairM64 env lc Mat Mat_inv s h
  simp only at h2 h3
  have hAB : mat64 A * mat64 B = 1 := by
    rw [h2, h3]
    exact prod_inv _ _ _ (fun i _ => inv64 _ _)
  exact ⟨A, B, s', h1, hAB, mat_comm hAB, h2⟩

/-- C59: `InvSMatM64` stores the inverse of the product of the basis matrices on the trail. -/
theorem C59_InvSMatM64 (env : Env) (TM : Vector (Vector (BitVec 8) 1024) 100) (Mat_inv : M64) (k : Nat)
    (hk : k < 100) (ht : ∀ i (hi : i < 1024), (TM[k][i]).toNat < 16) :
    ∃ B, basis.InvSMatM64 env TM Mat_inv k = .ok B ∧
      ((List.range 1024).map fun i => mat64 (sel MatrixM64 (TM[k].toList.getD i 0).toNat)).prod * mat64 B = 1 ∧
      mat64 B * ((List.range 1024).map fun i => mat64 (sel MatrixM64 (TM[k].toList.getD i 0).toNat)).prod = 1 := by
  obtain ⟨B, h1, h2⟩ := basisInvSMatM64 env TM Mat_inv k hk ht
  have hAB : ((List.range 1024).map fun i => mat64 (sel MatrixM64 (TM[k].toList.getD i 0).toNat)).prod * mat64 B = 1 := by
    rw [h2]
    exact prod_inv _ _ _ (fun i _ => inv64 _ _)
  exact ⟨B, h1, hAB, mat_comm hAB⟩

example : ∃ A s', basis.InvTMatM64 exEnv exRand exB64 exLW = .ok (A, s') ∧ IsUnit (mat64 A) := by
  obtain ⟨A, s', h, h1, -⟩ := C59_InvTMatM64 exEnv exRand exB64 exLW (by decide)
  exact ⟨A, s', h, h1⟩
example : ∃ A B s', basis.MatrixpairM64 exEnv exRand exB64 exB64 exLW = .ok ((A, B), s') ∧
    mat64 A * mat64 B = 1 := by
  obtain ⟨A, B, s', h, h1, -⟩ := C59_MatrixpairM64 exEnv exRand exB64 exB64 exLW (by decide)
  exact ⟨A, B, s', h, h1⟩
example : ∃ B, basis.InvSMatM64 exEnv (Vector.replicate 100 (Vector.replicate 1024 7)) exB64 99 = .ok B := by
  obtain ⟨B, h, -⟩ := C59_InvSMatM64 exEnv (Vector.replicate 100 (Vector.replicate 1024 7)) exB64 99
    (by norm_num) (fun i hi => by rw [Vector.getElem_replicate, Vector.getElem_replicate]; decide)
  exact ⟨B, h⟩

/-- C59: with the largest `int` in `randseed` the increment overflows. -/
theorem C59_M64_overflow (env : Env) (lc : BitVec 32 → Nat → Nat) (Mat Mat_inv : M64) (s : LW)
    (h : s.w.randseed = 0x7fffffff#32) : basis.InvTMatM64 env lc Mat s = .error .overflow ∧
      basis.MatrixpairM64 env lc Mat Mat_inv s = .error .overflow := by
  obtain ⟨I, hI, -⟩ := C06_identityM64 (env.junkArr 64 64)
  have hl : liftB (identityM64 (env.junkArr 64 64)) s = .ok (I, s) := by rw [hI]; rfl
  constructor
  · unfold basis.InvTMatM64
    rw [BM_bind_run hl]
    exact BM_bind_error (srandReseed_overflow s h)
  · unfold basis.MatrixpairM64
    rw [BM_bind_run hl, BM_bind_run hl]
    exact BM_bind_error (srandReseed_overflow s h)

example : basis.InvTMatM64 exEnv exRand exB64 { exLW with w := { exWorld with randseed := 0x7fffffff } } =
    .error .overflow := (C59_M64_overflow _ _ _ exB64 _ rfl).1

theorem basisInvTMatM128 (env : Env) (lc : BitVec 32 → Nat → Nat) (Mat : M128) (s : LW)
    (h : s.w.randseed ≠ 0x7fffffff#32) : OkB (basis.InvTMatM128 env lc Mat) s (fun A _ => mat128 A = ((List.range 4096).map fun i => mat128 (sel MatrixM128 (lc (s.w.randseed ^^^ s.w.clock s.w.now) i))).prod) := by
  obtain ⟨I, hI, h1⟩ := C06_identityM128 (env.junkArr2 64 2 128)
  unfold basis.InvTMatM128
  rw [OkB.bind_iff, OkB.lift_iff, hI, Ok.ok_iff, OkB.bind_iff]
  refine OkB.reseed h ?_
  refine OkB.bind (prod_loop (m := mat128) (mul := fun A B => MatMulMatM128 env A B A) (fun A B => MatMulMatM128_ok env A B A) MatrixM128 lc I s.seeded) ?_
  rintro A s' ⟨hA, rfl⟩
  rw [OkB.lift_iff, copyM128_eq, Ok.ok_iff, hA, h1, one_mul]
  simp [LW.seeded]

theorem basisMatrixpairM128 (env : Env) (lc : BitVec 32 → Nat → Nat) (Mat Mat_inv : M128) (s : LW)
    (h : s.w.randseed ≠ 0x7fffffff#32) : OkB (basis.MatrixpairM128 env lc Mat Mat_inv) s (fun p _ =>
      mat128 p.1 = ((List.range 4096).map fun i => mat128 (sel MatrixM128 (lc (s.w.randseed ^^^ s.w.clock s.w.now) i))).prod ∧
      mat128 p.2 = ((List.range 4096).reverse.map fun i => mat128 (sel MatrixM128_inv (lc (s.w.randseed ^^^ s.w.clock s.w.now) i))).prod) := by
  obtain ⟨I, hI, h1⟩ := C06_identityM128 (env.junkArr2 64 2 128)
  unfold basis.MatrixpairM128
  rw [OkB.bind_iff, OkB.lift_iff, hI, Ok.ok_iff, OkB.bind_iff, OkB.lift_iff, Ok.ok_iff, OkB.bind_iff]
  refine OkB.reseed h ?_
  refine OkB.bind (pair_loop (m := mat128) (mul := fun A B => MatMulMatM128 env A B A) (fun A B => MatMulMatM128_ok env A B A) MatrixM128 lc I _ s.seeded) ?_
  rintro ⟨A, fl⟩ s' ⟨hA, hf, rfl⟩
  simp only at hA hf ⊢
  rw [OkB.bind_iff, OkB.lift_iff]
  refine (down_loop (m := mat128) (mul := fun A B => MatMulMatM128 env A B A) (fun A B => MatMulMatM128_ok env A B A) _ (fun i => sel MatrixM128_inv (lc (s.w.randseed ^^^ s.w.clock s.w.now) i)) ?_ I).mono ?_
  · intro i hi B
    rw [rd_ok _ _ hi, C_pure_bind, hf i hi, rd_sel, C_pure_bind]
    simp only [LW.seeded, Nat.zero_add]
  · intro B hB
    rw [OkB.bind_iff, OkB.lift_iff, copyM128_eq, Ok.ok_iff, OkB.bind_iff, OkB.lift_iff, copyM128_eq, Ok.ok_iff,
      OkB.pure_iff]
    refine ⟨?_, ?_⟩
    · rw [hA, h1, one_mul]
      simp [LW.seeded]
    · rw [hB, h1, one_mul]

/-- C59: `TrailM128` stores 4096 indices less than 16 in row `k` and leaves the other rows alone. -/
theorem C59_TrailM128 (lc : BitVec 32 → Nat → Nat) (TM : Vector (Vector (BitVec 8) 4096) 100) (k : Nat)
    (hk : k < 100) (s : LW) : ∃ TM' s', basis.TrailM128 lc TM k s = .ok (TM', s') ∧
      (∀ j (hj : j < 100), j ≠ k → TM'[j] = TM[j]) ∧
      (∀ i (hi : i < 4096), (TM'[k][i]).toNat = lc s.seed (s.cnt + i) % 16) ∧
      s' = { s with cnt := s.cnt + 4096 } := by
  obtain ⟨⟨TM', s'⟩, h1, h2⟩ := trail_loop lc TM k hk s
  exact ⟨TM', s', h1, h2⟩

theorem basisInvSMatM128 (env : Env) (TM : Vector (Vector (BitVec 8) 4096) 100) (Mat_inv : M128) (k : Nat)
    (hk : k < 100) (ht : ∀ i (hi : i < 4096), (TM[k][i]).toNat < 16) :
    Ok (basis.InvSMatM128 env TM Mat_inv k) (fun B =>
      mat128 B = ((List.range 4096).reverse.map fun i => mat128 (sel MatrixM128_inv (TM[k].toList.getD i 0).toNat)).prod) := by
  obtain ⟨I, hI, h1⟩ := C06_identityM128 (env.junkArr2 64 2 128)
  unfold basis.InvSMatM128
  rw [hI, C_pure_bind]
  refine Ok.bind (down_loop (m := mat128) (mul := fun A B => MatMulMatM128 env A B A) (fun A B => MatMulMatM128_ok env A B A) _
    (fun i => sel MatrixM128_inv (TM[k].toList.getD i 0).toNat) ?_ I) ?_
  · intro i hi B
    have e : TM[k].toList.getD i 0 = TM[k][i] := by
      rw [List.getD_eq_getElem?_getD, List.getElem?_eq_getElem (by simpa using hi)]
      simp
    rw [rd2_ok _ _ _ hk hi, C_pure_bind, e, ← Nat.mod_eq_of_lt (ht i hi), rd_sel, C_pure_bind,
      Nat.mod_eq_of_lt (ht i hi)]
  · intro B hB
    rw [copyM128_eq, Ok.ok_iff, hB, h1, one_mul]

/-- C59: `InvTMatM128` stores the product of the matrices drawn, which is invertible exactly if all 4096
draws select matrix 14. -/
theorem C59_InvTMatM128_partial (env : Env) (lc : BitVec 32 → Nat → Nat) (Mat : M128) (s : LW)
    (h : s.w.randseed ≠ 0x7fffffff#32) :
    ∃ A s', basis.InvTMatM128 env lc Mat s = .ok (A, s') ∧
      (IsUnit (mat128 A) ↔ ∀ i < 4096, lc (s.w.randseed ^^^ s.w.clock s.w.now) i % 16 = 14) ∧
      mat128 A = ((List.range 4096).map fun i => mat128 (sel MatrixM128 (lc (s.w.randseed ^^^ s.w.clock s.w.now) i))).prod := by
  obtain ⟨⟨A, s'⟩, h1, h2⟩ := basisInvTMatM128 env lc Mat s h
  refine ⟨A, s', h1, ?_, h2⟩
  simp only at h2
  rw [h2, isUnit_prod]
  constructor
  · intro hu i hi
    exact (unit_MatrixM128 _ (Nat.mod_lt _ (by norm_num))).1
      (hu _ (List.mem_map.2 ⟨i, List.mem_range.2 hi, rfl⟩))
  · intro ha X hX
    obtain ⟨i, hi, rfl⟩ := List.mem_map.1 hX
    exact (unit_MatrixM128 _ (Nat.mod_lt _ (by norm_num))).2 (ha i (List.mem_range.1 hi))

/-- C59: `InvTMatM128` stores a singular matrix as soon as one draw does not select matrix 14. -/
theorem C59_InvTMatM128_violated (env : Env) (lc : BitVec 32 → Nat → Nat) (Mat : M128) (s : LW)
    (h : s.w.randseed ≠ 0x7fffffff#32) (i : Nat) (hi : i < 4096) (hl : lc (s.w.randseed ^^^ s.w.clock s.w.now) i % 16 ≠ 14) :
    ∃ A s', basis.InvTMatM128 env lc Mat s = .ok (A, s') ∧ ¬ IsUnit (mat128 A) := by
  obtain ⟨A, s', h1, h2, -⟩ := C59_InvTMatM128_partial env lc Mat s h
  exact ⟨A, s', h1, fun hu => hl (h2.1 hu i hi)⟩

/-- C59: `MatrixpairM128` never stores a matrix and its inverse: the second matrix is always singular. -/
theorem C59_MatrixpairM128_violated (env : Env) (lc : BitVec 32 → Nat → Nat) (Mat Mat_inv : M128) (s : LW)
    (h : s.w.randseed ≠ 0x7fffffff#32) :
    ∃ A B s', basis.MatrixpairM128 env lc Mat Mat_inv s = .ok ((A, B), s') ∧
      ¬ IsUnit (mat128 B) ∧ mat128 A * mat128 B ≠ 1 ∧ mat128 B * mat128 A ≠ 1 := by
  obtain ⟨⟨⟨A, B⟩, s'⟩, h1, -, h3⟩ := basisMatrixpairM128 env lc Mat Mat_inv s h
  simp only at h3
  have hB : ¬ IsUnit (mat128 B) := by
    rw [h3, isUnit_prod]
    intro hu
    exact sing_MatrixM128_inv _ (Nat.mod_lt _ (by norm_num))
      (hu _ (List.mem_map.2 ⟨0, List.mem_reverse.2 (List.mem_range.2 (by norm_num)), rfl⟩))
  exact ⟨A, B, s', h1, hB, fun e => hB ⟨⟨_, _, mat_comm e, e⟩, rfl⟩, fun e => hB ⟨⟨_, _, e, mat_comm e⟩, rfl⟩⟩

/-- C59: `InvSMatM128` stores a singular matrix, whatever the trail. -/
theorem C59_InvSMatM128_violated (env : Env) (TM : Vector (Vector (BitVec 8) 4096) 100) (Mat_inv : M128) (k : Nat)
    (hk : k < 100) (ht : ∀ i (hi : i < 4096), (TM[k][i]).toNat < 16) :
    ∃ B, basis.InvSMatM128 env TM Mat_inv k = .ok B ∧ ¬ IsUnit (mat128 B) := by
  obtain ⟨B, h1, h2⟩ := basisInvSMatM128 env TM Mat_inv k hk ht
  refine ⟨B, h1, ?_⟩
  rw [h2, isUnit_prod]
  intro hu
  exact sing_MatrixM128_inv _ (Nat.mod_lt _ (by norm_num))
    (hu _ (List.mem_map.2 ⟨0, List.mem_reverse.2 (List.mem_range.2 (by norm_num)), rfl⟩))

/-- A `rand()` with which the result is invertible, and one with which it is not. -/
example : ∃ A s', basis.InvTMatM128 exEnv (fun _ _ => 30) exB128 exLW = .ok (A, s') ∧ IsUnit (mat128 A) := by
  obtain ⟨A, s', h, h1, -⟩ := C59_InvTMatM128_partial exEnv (fun _ _ => 30) exB128 exLW (by decide)
  exact ⟨A, s', h, h1.2 (fun _ _ => rfl)⟩
example : ∃ A s', basis.InvTMatM128 exEnv exRand exB128 exLW = .ok (A, s') ∧ ¬ IsUnit (mat128 A) :=
  C59_InvTMatM128_violated exEnv exRand exB128 exLW (by decide) 0 (by norm_num) (by decide)
example : ∃ A B s', basis.MatrixpairM128 exEnv exRand exB128 exB128 exLW = .ok ((A, B), s') ∧
    mat128 A * mat128 B ≠ 1 := by
  obtain ⟨A, B, s', h, -, h1, -⟩ := C59_MatrixpairM128_violated exEnv exRand exB128 exB128 exLW (by decide)
  exact ⟨A, B, s', h, h1⟩
example : ∃ B, basis.InvSMatM128 exEnv (Vector.replicate 100 (Vector.replicate 4096 7)) exB128 99 = .ok B ∧
    ¬ IsUnit (mat128 B) :=
  C59_InvSMatM128_violated exEnv (Vector.replicate 100 (Vector.replicate 4096 7)) exB128 99
    (by norm_num) (fun i hi => by rw [Vector.getElem_replicate, Vector.getElem_replicate]; decide)

/-- C59: with the largest `int` in `randseed` the increment overflows. -/
theorem C59_M128_overflow (env : Env) (lc : BitVec 32 → Nat → Nat) (Mat Mat_inv : M128) (s : LW)
    (h : s.w.randseed = 0x7fffffff#32) : basis.InvTMatM128 env lc Mat s = .error .overflow ∧
      basis.MatrixpairM128 env lc Mat Mat_inv s = .error .overflow := by
  obtain ⟨I, hI, -⟩ := C06_identityM128 (env.junkArr2 64 2 128)
  have hl : liftB (identityM128 (env.junkArr2 64 2 128)) s = .ok (I, s) := by rw [hI]; rfl
  constructor
  · unfold basis.InvTMatM128
    rw [BM_bind_run hl]
    exact BM_bind_error (srandReseed_overflow s h)
  · unfold basis.MatrixpairM128
    rw [BM_bind_run hl, BM_bind_run hl]
    exact BM_bind_error (srandReseed_overflow s h)

example : basis.InvTMatM128 exEnv exRand exB128 { exLW with w := { exWorld with randseed := 0x7fffffff } } =
    .error .overflow := (C59_M128_overflow _ _ _ exB128 _ rfl).1

/-- A run. -/
example : (basis.InvTMatM8 exEnv exRand exB8 exLW).map (·.1) = .ok #v[0xce, 0xcd, 0xb8, 0x23, 0x06, 0x7a, 0xcc, 0xa9] := by decide +kernel
example : (basis.MatrixpairM8 exEnv exRand exB8 exB8 exLW).map (·.1) = .ok (#v[0xce, 0xcd, 0xb8, 0x23, 0x06, 0x7a, 0xcc, 0xa9], #v[0xbd, 0x1b, 0xd0, 0x63, 0x2e, 0x8a, 0x82, 0x42]) := by decide +kernel

end WB
