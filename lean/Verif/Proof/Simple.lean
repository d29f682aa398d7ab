import Verif.Proof.Rows
import Verif.Model.M4
import Verif.Model.M8
import Verif.Model.M16
import Verif.Model.M32
import Verif.Model.M64
import Verif.Model.M128
import Verif.Model.M256

/-!
# Exact results of the straight-line loops (helper lemmas)

Written by `tools/gen_simple.py`.
-/
namespace WB
open Matrix

theorem ofFn_getElem {α : Type} {n : Nat} (v : Vector α n) :
    (Vector.ofFn fun i : Fin n => v[i]) = v := by
  ext i hi; simp

theorem mat_zero {w : Nat} (n : Nat) :
    matOf n (bitS n) (Vector.replicate n (0 : BitVec w)) = 0 := by
  ext r c; simp [matOf, bitS]

theorem mat_id {n w : Nat} {id : Vector (BitVec w) n} (h : IdOK n id) :
    matOf n (bitS n) id = 1 := by
  ext r c
  simp only [matOf, Fin.getElem_fin, h.2 r.val r.2, bitS, BitVec.getLsbD_twoPow, one_apply]
  have := h.1
  by_cases e : r = c
  · subst e; simp; omega
  · have : r.val ≠ c.val := fun e' => e (Fin.ext e')
    rw [if_neg e]
    simp; omega

theorem mat_add {n w : Nat} (A B : Vector (BitVec w) n) :
    matOf n (bitS n) (Vector.ofFn fun i : Fin n => A[i] ^^^ B[i]) =
      matOf n (bitS n) A + matOf n (bitS n) B := by
  ext r c
  simp [matOf, bitS_xor, bitF_xor]

theorem vec_add {n w : Nat} (x y : BitVec w) :
    vecOf n (bitS n) (x ^^^ y) = vecOf n (bitS n) x + vecOf n (bitS n) y := by
  ext c; simp [vecOf, bitS_xor, bitF_xor]

theorem vecEq_iff {n : Nat} {α : Type} (A B : Vector α n) :
    (∀ i (h : i < n), A[i] = B[i]) ↔ A = B := by
  constructor
  · intro h; ext i hi; exact h i hi
  · rintro rfl i _; rfl

theorem vecEq2 {α : Type} (A B : Vector α 2) : A = B ↔ A[0] = B[0] ∧ A[1] = B[1] := by
  constructor
  · rintro rfl; exact ⟨rfl, rfl⟩
  · rintro ⟨h0, h1⟩
    rw [← vec2_eta A, ← vec2_eta B, h0, h1]

theorem vecEq4 {α : Type} (A B : Vector α 4) :
    A = B ↔ A[0] = B[0] ∧ A[1] = B[1] ∧ A[2] = B[2] ∧ A[3] = B[3] := by
  constructor
  · rintro rfl; exact ⟨rfl, rfl, rfl, rfl⟩
  · rintro ⟨h0, h1, h2, h3⟩
    rw [← vec4_eta A, ← vec4_eta B, h0, h1, h2, h3]

theorem matW_zero {l n : Nat} (hn : n = 64 * l) :
    matOf n bitW (Vector.replicate n (Vector.replicate l (0 : BitVec 64))) = 0 := by
  ext r c
  have := c.2
  simp only [matOf, Fin.getElem_fin, Vector.getElem_replicate]
  rw [bitW_eq _ _ (by omega)]
  simp

theorem matW_addmat {l n : Nat} (hn : n = 64 * l) {A B Z : Vector (Vector (BitVec 64) l) n}
    (h : ∀ r (hr : r < n) k (hk : k < l), Z[r][k] = A[r][k] ^^^ B[r][k]) :
    matOf n bitW Z = matOf n bitW A + matOf n bitW B := by
  ext r c
  have := c.2
  have hc : c.val / 64 < l := by omega
  simp only [matOf, Fin.getElem_fin, Matrix.add_apply]
  rw [bitW_xor hc (h r.val r.2 _ hc), bitF_xor]

theorem vecW_add {l n : Nat} (hn : n = 64 * l) {x y z : Vector (BitVec 64) l}
    (h : ∀ k (hk : k < l), z[k] = x[k] ^^^ y[k]) :
    vecOf n bitW z = vecOf n bitW x + vecOf n bitW y := by
  ext c
  have := c.2
  have hc : c.val / 64 < l := by omega
  simp only [vecOf, Pi.add_apply]
  rw [bitW_xor hc (h _ hc), bitF_xor]

/-- The identity matrix on rows of words. -/
theorem matW_id {l n : Nat} (hn : n = 64 * l) {Z : Vector (Vector (BitVec 64) l) n}
    (h : ∀ r (hr : r < n) k (hk : k < l),
      Z[r][k] = if k = r / 64 then BitVec.twoPow 64 (63 - r % 64) else 0) :
    matOf n bitW Z = 1 := by
  ext r c
  have := c.2
  have hc : c.val / 64 < l := by omega
  simp only [matOf, Fin.getElem_fin, one_apply]
  rw [bitW_eq _ _ hc, h r.val r.2 _ hc]
  by_cases e : r = c
  · subst e
    simp; omega
  · have hne : r.val ≠ c.val := fun e' => e (Fin.ext e')
    rw [if_neg e]
    split
    · simp only [BitVec.getLsbD_twoPow, bitF_eq_zero, Bool.and_eq_false_iff,
        decide_eq_false_iff_not]
      omega
    · simp

theorem rd_idM64 {i : Nat} (h : i < 64) : rd idM64 i = .ok (BitVec.twoPow 64 (63 - i)) := by
  rw [rd_ok _ _ h, idOK64.2 i h]

/-! ## Size 4 -/

theorem initM4_eq (M : M4) : initM4 M = .ok (Vector.replicate 4 0) := fillc_spec M 0

theorem identityM4_eq (M : M4) : identityM4 M = .ok idM4 := by
  have := fill_spec M (fun i => rd idM4 i) (fun i => idM4[i]) (fun i h => rd_ok _ _ h)
  rw [ofFn_getElem] at this
  exact this

theorem copyM4_eq (A B : M4) : copyM4 A B = .ok A := by
  have := fill_spec B (fun i => rd A i) (fun i => A[i]) (fun i h => rd_ok _ _ h)
  rw [ofFn_getElem] at this
  exact this

theorem MatAddMatM4_eq (A B M : M4) :
    MatAddMatM4 A B M = .ok (Vector.ofFn fun i : Fin 4 => A[i] ^^^ B[i]) := by
  have := fill_spec M (fun i => do pure ((← rd A i) ^^^ (← rd B i))) (fun i => A[i] ^^^ B[i])
    (fun i h => by rw [rd_ok _ _ h, rd_ok _ _ h]; rfl)
  unfold MatAddMatM4
  simpa only [bind_assoc, pure_bind] using this

theorem isequalM4_eq (A B : M4) : isequalM4 A B = .ok (if A = B then 1 else 0) := by
  unfold isequalM4
  refine (eqLoop (n := 4) _ (fun i => ∀ h : i < 4, A[i] = B[i]) ?_).trans ?_
  rotate_left
  · refine congrArg Except.ok (if_congr ?_ rfl rfl)
    rw [← vecEq_iff]
    exact ⟨fun h i hi => h i hi hi, fun h i _ hi => h i hi⟩
  · intro i h
    rw [rd_ok _ _ h, rd_ok _ _ h]
    simp only [C_pure_bind]
    by_cases e : A[i] = B[i]
    · simp [e]; rfl
    · simp [e, h]; rfl

/-! ## Size 8 -/

theorem initM8_eq (M : M8) : initM8 M = .ok (Vector.replicate 8 0) := fillc_spec M 0

theorem identityM8_eq (M : M8) : identityM8 M = .ok idM8 := by
  have := fill_spec M (fun i => rd idM8 i) (fun i => idM8[i]) (fun i h => rd_ok _ _ h)
  rw [ofFn_getElem] at this
  exact this

theorem copyM8_eq (A B : M8) : copyM8 A B = .ok A := by
  have := fill_spec B (fun i => rd A i) (fun i => A[i]) (fun i h => rd_ok _ _ h)
  rw [ofFn_getElem] at this
  exact this

theorem MatAddMatM8_eq (A B M : M8) :
    MatAddMatM8 A B M = .ok (Vector.ofFn fun i : Fin 8 => A[i] ^^^ B[i]) := by
  have := fill_spec M (fun i => do pure ((← rd A i) ^^^ (← rd B i))) (fun i => A[i] ^^^ B[i])
    (fun i h => by rw [rd_ok _ _ h, rd_ok _ _ h]; rfl)
  unfold MatAddMatM8
  simpa only [bind_assoc, pure_bind] using this

theorem isequalM8_eq (A B : M8) : isequalM8 A B = .ok (if A = B then 1 else 0) := by
  unfold isequalM8
  refine (eqLoop (n := 8) _ (fun i => ∀ h : i < 8, A[i] = B[i]) ?_).trans ?_
  rotate_left
  · refine congrArg Except.ok (if_congr ?_ rfl rfl)
    rw [← vecEq_iff]
    exact ⟨fun h i hi => h i hi hi, fun h i _ hi => h i hi⟩
  · intro i h
    rw [rd_ok _ _ h, rd_ok _ _ h]
    simp only [C_pure_bind]
    by_cases e : A[i] = B[i]
    · simp [e]; rfl
    · simp [e, h]; rfl

/-! ## Size 16 -/

theorem initM16_eq (M : M16) : initM16 M = .ok (Vector.replicate 16 0) := fillc_spec M 0

theorem identityM16_eq (M : M16) : identityM16 M = .ok idM16 := by
  have := fill_spec M (fun i => rd idM16 i) (fun i => idM16[i]) (fun i h => rd_ok _ _ h)
  rw [ofFn_getElem] at this
  exact this

theorem copyM16_eq (A B : M16) : copyM16 A B = .ok A := by
  have := fill_spec B (fun i => rd A i) (fun i => A[i]) (fun i h => rd_ok _ _ h)
  rw [ofFn_getElem] at this
  exact this

theorem MatAddMatM16_eq (A B M : M16) :
    MatAddMatM16 A B M = .ok (Vector.ofFn fun i : Fin 16 => A[i] ^^^ B[i]) := by
  have := fill_spec M (fun i => do pure ((← rd A i) ^^^ (← rd B i))) (fun i => A[i] ^^^ B[i])
    (fun i h => by rw [rd_ok _ _ h, rd_ok _ _ h]; rfl)
  unfold MatAddMatM16
  simpa only [bind_assoc, pure_bind] using this

theorem isequalM16_eq (A B : M16) : isequalM16 A B = .ok (if A = B then 1 else 0) := by
  unfold isequalM16
  refine (eqLoop (n := 16) _ (fun i => ∀ h : i < 16, A[i] = B[i]) ?_).trans ?_
  rotate_left
  · refine congrArg Except.ok (if_congr ?_ rfl rfl)
    rw [← vecEq_iff]
    exact ⟨fun h i hi => h i hi hi, fun h i _ hi => h i hi⟩
  · intro i h
    rw [rd_ok _ _ h, rd_ok _ _ h]
    simp only [C_pure_bind]
    by_cases e : A[i] = B[i]
    · simp [e]; rfl
    · simp [e, h]; rfl

/-! ## Size 32 -/

theorem initM32_eq (M : M32) : initM32 M = .ok (Vector.replicate 32 0) := fillc_spec M 0

theorem identityM32_eq (M : M32) : identityM32 M = .ok idM32 := by
  have := fill_spec M (fun i => rd idM32 i) (fun i => idM32[i]) (fun i h => rd_ok _ _ h)
  rw [ofFn_getElem] at this
  exact this

theorem copyM32_eq (A B : M32) : copyM32 A B = .ok A := by
  have := fill_spec B (fun i => rd A i) (fun i => A[i]) (fun i h => rd_ok _ _ h)
  rw [ofFn_getElem] at this
  exact this

theorem MatAddMatM32_eq (A B M : M32) :
    MatAddMatM32 A B M = .ok (Vector.ofFn fun i : Fin 32 => A[i] ^^^ B[i]) := by
  have := fill_spec M (fun i => do pure ((← rd A i) ^^^ (← rd B i))) (fun i => A[i] ^^^ B[i])
    (fun i h => by rw [rd_ok _ _ h, rd_ok _ _ h]; rfl)
  unfold MatAddMatM32
  simpa only [bind_assoc, pure_bind] using this

theorem isequalM32_eq (A B : M32) : isequalM32 A B = .ok (if A = B then 1 else 0) := by
  unfold isequalM32
  refine (eqLoop (n := 32) _ (fun i => ∀ h : i < 32, A[i] = B[i]) ?_).trans ?_
  rotate_left
  · refine congrArg Except.ok (if_congr ?_ rfl rfl)
    rw [← vecEq_iff]
    exact ⟨fun h i hi => h i hi hi, fun h i _ hi => h i hi⟩
  · intro i h
    rw [rd_ok _ _ h, rd_ok _ _ h]
    simp only [C_pure_bind]
    by_cases e : A[i] = B[i]
    · simp [e]; rfl
    · simp [e, h]; rfl

/-! ## Size 64 -/

theorem initM64_eq (M : M64) : initM64 M = .ok (Vector.replicate 64 0) := fillc_spec M 0

theorem identityM64_eq (M : M64) : identityM64 M = .ok idM64 := by
  have := fill_spec M (fun i => rd idM64 i) (fun i => idM64[i]) (fun i h => rd_ok _ _ h)
  rw [ofFn_getElem] at this
  exact this

theorem copyM64_eq (A B : M64) : copyM64 A B = .ok A := by
  have := fill_spec B (fun i => rd A i) (fun i => A[i]) (fun i h => rd_ok _ _ h)
  rw [ofFn_getElem] at this
  exact this

theorem MatAddMatM64_eq (A B M : M64) :
    MatAddMatM64 A B M = .ok (Vector.ofFn fun i : Fin 64 => A[i] ^^^ B[i]) := by
  have := fill_spec M (fun i => do pure ((← rd A i) ^^^ (← rd B i))) (fun i => A[i] ^^^ B[i])
    (fun i h => by rw [rd_ok _ _ h, rd_ok _ _ h]; rfl)
  unfold MatAddMatM64
  simpa only [bind_assoc, pure_bind] using this

theorem isequalM64_eq (A B : M64) : isequalM64 A B = .ok (if A = B then 1 else 0) := by
  unfold isequalM64
  refine (eqLoop (n := 64) _ (fun i => ∀ h : i < 64, A[i] = B[i]) ?_).trans ?_
  rotate_left
  · refine congrArg Except.ok (if_congr ?_ rfl rfl)
    rw [← vecEq_iff]
    exact ⟨fun h i hi => h i hi hi, fun h i _ hi => h i hi⟩
  · intro i h
    rw [rd_ok _ _ h, rd_ok _ _ h]
    simp only [C_pure_bind]
    by_cases e : A[i] = B[i]
    · simp [e]; rfl
    · simp [e, h]; rfl

/-! ## Size 128 -/

theorem initM128_eq (M : M128) :
    initM128 M = .ok (Vector.replicate 128 (Vector.replicate 2 0)) := by
  rw [← Ok.eq]
  refine (fill2_spec (lo := 0) (hi := 128) M (fun _ => .ok 0) (fun _ => .ok 0) (fun _ => 0) (fun _ => 0)
    (by omega) (by omega) (fun _ _ _ => rfl) (fun _ _ _ => rfl)).mono ?_
  intro Z h
  ext r hr k hk
  rw [(h r hr).1 (by omega) hr]
  simp only [Vector.getElem_replicate]
  obtain rfl | rfl : k = 0 ∨ k = 1 := by omega
  all_goals rfl

theorem identityM128_ok (M : M128) : Ok (identityM128 M) (fun Z => matOf 128 bitW Z = 1) := by
  unfold identityM128
  refine Ok.bind (fill2_spec (lo := 0) (hi := 64) _ (fun i => rd idM64 (i)) (fun _ => .ok 0)
    (fun i => BitVec.twoPow 64 (63 - (i))) (fun _ => 0) (by omega) (by omega)
    (fun i _ _ => rd_idM64 (by omega)) (fun _ _ _ => rfl)) ?_
  intro M1 h1
  refine (fill2_spec (lo := 64) (hi := 128) _ (fun _ => .ok 0) (fun i => rd idM64 (i - 64))
    (fun _ => 0) (fun i => BitVec.twoPow 64 (63 - (i - 64))) (by omega) (by omega)
    (fun _ _ _ => rfl) (fun i _ _ => rd_idM64 (by omega))).mono ?_
  intro M2 h2
  refine matW_id (l := 2) rfl ?_
  intro r hr k hk
  have hcase : (0 ≤ r ∧ r < 64) ∨ (64 ≤ r ∧ r < 128) := by omega
  rcases hcase with hc | hc
  · rw [(h2 r hr).2 (by omega), (h1 r hr).1 (by omega) (by omega)]
    obtain rfl | rfl : k = 0 ∨ k = 1 := by omega
    · have e : r / 64 = 0 := by omega
      have e2 : r % 64 = r - 0 := by omega
      simp [e, e2]
    · have e : r / 64 = 0 := by omega
      simp [e]
  · rw [(h2 r hr).1 (by omega) (by omega)]
    obtain rfl | rfl : k = 0 ∨ k = 1 := by omega
    · have e : r / 64 = 1 := by omega
      simp [e]
    · have e : r / 64 = 1 := by omega
      have e2 : r % 64 = r - 64 := by omega
      simp [e, e2]

theorem copyM128_eq (A B : M128) : copyM128 A B = .ok A := by
  rw [← Ok.eq]
  refine (fill2_spec (lo := 0) (hi := 128) B (fun i => rd2 A i 0) (fun i => rd2 A i 1)
    (fun i => (A[i]?.getD (Vector.replicate 2 0))[0]) (fun i => (A[i]?.getD (Vector.replicate 2 0))[1])
    (by omega) (by omega) (fun i _ h => by simp [rd2_ok, h]) (fun i _ h => by simp [rd2_ok, h])).mono ?_
  intro Z h
  ext r hr
  rw [(h r hr).1 (by omega) hr]
  simp only [hr, Vector.getElem?_eq_getElem, Option.getD_some, vec2_eta]

theorem MatAddMatM128_ok (A B M : M128) :
    Ok (MatAddMatM128 A B M) (fun Z => ∀ r (hr : r < 128) k (hk : k < 2),
      Z[r][k] = A[r][k] ^^^ B[r][k]) := by
  have := (fill2_spec (lo := 0) (hi := 128) M (fun i => do pure ((← rd2 A i 0) ^^^ (← rd2 B i 0))) (fun i => do pure ((← rd2 A i 1) ^^^ (← rd2 B i 1)))
    (fun i => (A[i]?.getD (Vector.replicate 2 0))[0] ^^^ (B[i]?.getD (Vector.replicate 2 0))[0]) (fun i => (A[i]?.getD (Vector.replicate 2 0))[1] ^^^ (B[i]?.getD (Vector.replicate 2 0))[1])
    (by omega) (by omega) (fun i _ h => by simp [rd2_ok, h]; try rfl) (fun i _ h => by simp [rd2_ok, h]; try rfl))
  unfold MatAddMatM128
  simp only [bind_assoc, pure_bind] at this
  refine this.mono ?_
  intro Z h r hr k hk
  rw [(h r hr).1 (by omega) hr]
  simp only [hr, Vector.getElem?_eq_getElem, Option.getD_some]
  obtain rfl | rfl : k = 0 ∨ k = 1 := by omega
  all_goals rfl

theorem isequalM128_eq (A B : M128) : isequalM128 A B = .ok (if A = B then 1 else 0) := by
  unfold isequalM128
  refine (eqLoop (n := 128) _ (fun i => ∀ h : i < 128, A[i] = B[i]) ?_).trans ?_
  rotate_left
  · refine congrArg Except.ok (if_congr ?_ rfl rfl)
    rw [← vecEq_iff]
    exact ⟨fun h i hi => h i hi hi, fun h i _ hi => h i hi⟩
  · intro i h
    simp only [rd2_ok, h, C_pure_bind, Nat.zero_lt_succ, Nat.reduceLT, forall_true_left, vecEq2]
    by_cases e0 : A[i][0] = B[i][0] <;> by_cases e1 : A[i][1] = B[i][1] <;> simp [e0, e1] <;> rfl

/-! ## Size 256 -/

theorem initM256_eq (M : M256) :
    initM256 M = .ok (Vector.replicate 256 (Vector.replicate 4 0)) := by
  rw [← Ok.eq]
  refine (fill4_spec (lo := 0) (hi := 256) M (fun _ => .ok 0) (fun _ => .ok 0) (fun _ => .ok 0) (fun _ => .ok 0) (fun _ => 0) (fun _ => 0) (fun _ => 0) (fun _ => 0)
    (by omega) (by omega) (fun _ _ _ => rfl) (fun _ _ _ => rfl) (fun _ _ _ => rfl) (fun _ _ _ => rfl)).mono ?_
  intro Z h
  ext r hr k hk
  rw [(h r hr).1 (by omega) hr]
  simp only [Vector.getElem_replicate]
  obtain rfl | rfl | rfl | rfl : k = 0 ∨ k = 1 ∨ k = 2 ∨ k = 3 := by omega
  all_goals rfl

theorem identityM256_ok (M : M256) : Ok (identityM256 M) (fun Z => matOf 256 bitW Z = 1) := by
  unfold identityM256
  refine Ok.bind (fill4_spec (lo := 0) (hi := 64) _ (fun i => rd idM64 (i)) (fun _ => .ok 0) (fun _ => .ok 0) (fun _ => .ok 0)
    (fun i => BitVec.twoPow 64 (63 - (i))) (fun _ => 0) (fun _ => 0) (fun _ => 0) (by omega) (by omega)
    (fun i _ _ => rd_idM64 (by omega)) (fun _ _ _ => rfl) (fun _ _ _ => rfl) (fun _ _ _ => rfl)) ?_
  intro M1 h1
  refine Ok.bind (fill4_spec (lo := 64) (hi := 128) _ (fun _ => .ok 0) (fun i => rd idM64 (i - 64)) (fun _ => .ok 0) (fun _ => .ok 0)
    (fun _ => 0) (fun i => BitVec.twoPow 64 (63 - (i - 64))) (fun _ => 0) (fun _ => 0) (by omega) (by omega)
    (fun _ _ _ => rfl) (fun i _ _ => rd_idM64 (by omega)) (fun _ _ _ => rfl) (fun _ _ _ => rfl)) ?_
  intro M2 h2
  refine Ok.bind (fill4_spec (lo := 128) (hi := 192) _ (fun _ => .ok 0) (fun _ => .ok 0) (fun i => rd idM64 (i - 128)) (fun _ => .ok 0)
    (fun _ => 0) (fun _ => 0) (fun i => BitVec.twoPow 64 (63 - (i - 128))) (fun _ => 0) (by omega) (by omega)
    (fun _ _ _ => rfl) (fun _ _ _ => rfl) (fun i _ _ => rd_idM64 (by omega)) (fun _ _ _ => rfl)) ?_
  intro M3 h3
  refine (fill4_spec (lo := 192) (hi := 256) _ (fun _ => .ok 0) (fun _ => .ok 0) (fun _ => .ok 0) (fun i => rd idM64 (i - 192))
    (fun _ => 0) (fun _ => 0) (fun _ => 0) (fun i => BitVec.twoPow 64 (63 - (i - 192))) (by omega) (by omega)
    (fun _ _ _ => rfl) (fun _ _ _ => rfl) (fun _ _ _ => rfl) (fun i _ _ => rd_idM64 (by omega))).mono ?_
  intro M4 h4
  refine matW_id (l := 4) rfl ?_
  intro r hr k hk
  have hcase : (0 ≤ r ∧ r < 64) ∨ (64 ≤ r ∧ r < 128) ∨ (128 ≤ r ∧ r < 192) ∨ (192 ≤ r ∧ r < 256) := by omega
  rcases hcase with hc | hc | hc | hc
  · rw [(h4 r hr).2 (by omega), (h3 r hr).2 (by omega), (h2 r hr).2 (by omega), (h1 r hr).1 (by omega) (by omega)]
    obtain rfl | rfl | rfl | rfl : k = 0 ∨ k = 1 ∨ k = 2 ∨ k = 3 := by omega
    · have e : r / 64 = 0 := by omega
      have e2 : r % 64 = r - 0 := by omega
      simp [e, e2]
    · have e : r / 64 = 0 := by omega
      simp [e]
    · have e : r / 64 = 0 := by omega
      simp [e]
    · have e : r / 64 = 0 := by omega
      simp [e]
  · rw [(h4 r hr).2 (by omega), (h3 r hr).2 (by omega), (h2 r hr).1 (by omega) (by omega)]
    obtain rfl | rfl | rfl | rfl : k = 0 ∨ k = 1 ∨ k = 2 ∨ k = 3 := by omega
    · have e : r / 64 = 1 := by omega
      simp [e]
    · have e : r / 64 = 1 := by omega
      have e2 : r % 64 = r - 64 := by omega
      simp [e, e2]
    · have e : r / 64 = 1 := by omega
      simp [e]
    · have e : r / 64 = 1 := by omega
      simp [e]
  · rw [(h4 r hr).2 (by omega), (h3 r hr).1 (by omega) (by omega)]
    obtain rfl | rfl | rfl | rfl : k = 0 ∨ k = 1 ∨ k = 2 ∨ k = 3 := by omega
    · have e : r / 64 = 2 := by omega
      simp [e]
    · have e : r / 64 = 2 := by omega
      simp [e]
    · have e : r / 64 = 2 := by omega
      have e2 : r % 64 = r - 128 := by omega
      simp [e, e2]
    · have e : r / 64 = 2 := by omega
      simp [e]
  · rw [(h4 r hr).1 (by omega) (by omega)]
    obtain rfl | rfl | rfl | rfl : k = 0 ∨ k = 1 ∨ k = 2 ∨ k = 3 := by omega
    · have e : r / 64 = 3 := by omega
      simp [e]
    · have e : r / 64 = 3 := by omega
      simp [e]
    · have e : r / 64 = 3 := by omega
      simp [e]
    · have e : r / 64 = 3 := by omega
      have e2 : r % 64 = r - 192 := by omega
      simp [e, e2]

theorem copyM256_eq (A B : M256) : copyM256 A B = .ok A := by
  rw [← Ok.eq]
  refine (fill4_spec (lo := 0) (hi := 256) B (fun i => rd2 A i 0) (fun i => rd2 A i 1) (fun i => rd2 A i 2) (fun i => rd2 A i 3)
    (fun i => (A[i]?.getD (Vector.replicate 4 0))[0]) (fun i => (A[i]?.getD (Vector.replicate 4 0))[1]) (fun i => (A[i]?.getD (Vector.replicate 4 0))[2]) (fun i => (A[i]?.getD (Vector.replicate 4 0))[3])
    (by omega) (by omega) (fun i _ h => by simp [rd2_ok, h]) (fun i _ h => by simp [rd2_ok, h]) (fun i _ h => by simp [rd2_ok, h]) (fun i _ h => by simp [rd2_ok, h])).mono ?_
  intro Z h
  ext r hr
  rw [(h r hr).1 (by omega) hr]
  simp only [hr, Vector.getElem?_eq_getElem, Option.getD_some, vec4_eta]

theorem MatAddMatM256_ok (A B M : M256) :
    Ok (MatAddMatM256 A B M) (fun Z => ∀ r (hr : r < 256) k (hk : k < 4),
      Z[r][k] = A[r][k] ^^^ B[r][k]) := by
  have := (fill4_spec (lo := 0) (hi := 256) M (fun i => do pure ((← rd2 A i 0) ^^^ (← rd2 B i 0))) (fun i => do pure ((← rd2 A i 1) ^^^ (← rd2 B i 1))) (fun i => do pure ((← rd2 A i 2) ^^^ (← rd2 B i 2))) (fun i => do pure ((← rd2 A i 3) ^^^ (← rd2 B i 3)))
    (fun i => (A[i]?.getD (Vector.replicate 4 0))[0] ^^^ (B[i]?.getD (Vector.replicate 4 0))[0]) (fun i => (A[i]?.getD (Vector.replicate 4 0))[1] ^^^ (B[i]?.getD (Vector.replicate 4 0))[1]) (fun i => (A[i]?.getD (Vector.replicate 4 0))[2] ^^^ (B[i]?.getD (Vector.replicate 4 0))[2]) (fun i => (A[i]?.getD (Vector.replicate 4 0))[3] ^^^ (B[i]?.getD (Vector.replicate 4 0))[3])
    (by omega) (by omega) (fun i _ h => by simp [rd2_ok, h]; try rfl) (fun i _ h => by simp [rd2_ok, h]; try rfl) (fun i _ h => by simp [rd2_ok, h]; try rfl) (fun i _ h => by simp [rd2_ok, h]; try rfl))
  unfold MatAddMatM256
  simp only [bind_assoc, pure_bind] at this
  refine this.mono ?_
  intro Z h r hr k hk
  rw [(h r hr).1 (by omega) hr]
  simp only [hr, Vector.getElem?_eq_getElem, Option.getD_some]
  obtain rfl | rfl | rfl | rfl : k = 0 ∨ k = 1 ∨ k = 2 ∨ k = 3 := by omega
  all_goals rfl

theorem isequalM256_eq (A B : M256) : isequalM256 A B = .ok (if A = B then 1 else 0) := by
  unfold isequalM256
  refine (eqLoop (n := 256) _ (fun i => ∀ h : i < 256, A[i] = B[i]) ?_).trans ?_
  rotate_left
  · refine congrArg Except.ok (if_congr ?_ rfl rfl)
    rw [← vecEq_iff]
    exact ⟨fun h i hi => h i hi hi, fun h i _ hi => h i hi⟩
  · intro i h
    simp only [rd2_ok, h, C_pure_bind, Nat.zero_lt_succ, Nat.reduceLT, forall_true_left, vecEq4]
    by_cases e0 : A[i][0] = B[i][0] <;> by_cases e1 : A[i][1] = B[i][1] <;> by_cases e2 : A[i][2] = B[i][2] <;> by_cases e3 : A[i][3] = B[i][3] <;> simp [e0, e1, e2, e3] <;> rfl

end WB
