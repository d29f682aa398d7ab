import Verif.Proof.Old
import Verif.Proof.Affine
import Verif.Proof.Dirty

/-!
# The older library equals the current one (helper lemmas)
-/
namespace WB
open Matrix

theorem Ok.eq_of {α : Type} {x y : C α} {P Q : α → Prop} (hx : Ok x P) (hy : Ok y Q) (h : ∀ a b, P a → Q b → a = b) :
    x = y := by
  obtain ⟨a, ha, hp⟩ := hx
  obtain ⟨b, hb, hq⟩ := hy
  rw [ha, hb, h a b hp hq]

theorem flagLoop' (lo hi : Nat) (f : Nat → Int → C (Step Int Int)) (g : Nat → Unit → C (Step Int Unit))
    (h : ∀ i, i < lo + (hi - lo) → ∃ b : Bool, f i 1 = .ok (if b then .stop 0 else .next 1) ∧
      g i () = .ok (if b then .stop 0 else .next ())) :
    forBrk lo hi (1 : Int) f = (do
      let r ← forRet (ρ := Int) lo hi () g
      match r with
      | .stop r => pure r
      | .next _ => pure 1) := by
  unfold forBrk forRet
  have : ∀ i, i ∈ List.range' lo (hi - lo) → i < lo + (hi - lo) := fun i hi => (List.mem_range'_1.1 hi).2
  revert this
  generalize List.range' lo (hi - lo) = l
  intro this
  induction l with
  | nil => rfl
  | cons i l ih =>
    obtain ⟨b, h1, h2⟩ := h i (this i (by simp))
    simp only [iterStop, h1, h2]
    cases b
    · exact ih fun j hj => this j (by simp [hj])
    · rfl

theorem clean4_of {x : BitVec 8} (h : ∀ k, 4 ≤ k → x.getLsbD k = false) : Clean4 x :=
  Nat.lt_pow_two_of_testBit (n := 4) _ fun k hk => h k hk

/-! ## 4 -/

theorem old_Mattrans4_ok (A T0 : M4) : Ok (old.MattransM4 A T0) (fun T => mat4 T = (mat4 A)ᵀ ∧ CleanM4 T) := by
  unfold old.MattransM4
  rw [initM4_eq, C_pure_bind]
  exact (transS idOK4 (by omega) A).mono fun T h => ⟨h.1, fun i => clean4_of fun k hk => h.2 i.1 i.2 k hk⟩

theorem old_Mattrans4_eq (env : Env) (A T0 T1 : M4) (hA : CleanM4 A) : old.MattransM4 A T0 = MattransM4 env A T1 :=
  (old_Mattrans4_ok A T0).eq_of (MattransM4_ok env A T1 hA) fun _ _ h h' => mat4_inj h.2 h'.2 (h.1.trans h'.1.symm)

theorem old_MatMulMat4_eq (env : Env) (A B C0 : M4) (hB : CleanM4 B) : old.MatMulMatM4 env A B C0 = MatMulMatM4 env A B C0 := by
  unfold old.MatMulMatM4 MatMulMatM4
  rw [old_Mattrans4_eq env B _ (env.junkArr 8 4) hB]

theorem old_affinemix4_eq (env : Env) (f g m : Aff4) (hg : CleanM4 g.Mat) : old.affinemixM4 env f g m = affinemixM4 env f g m := by
  unfold old.affinemixM4 affinemixM4
  rw [old_MatMulMat4_eq env _ _ _ hg]

/-- The result of the old 4-bit transpose depends on the low nibbles only. -/
theorem old_Mattrans4_low (A B T0 T1 : M4) (h : mat4 A = mat4 B) : old.MattransM4 A T0 = old.MattransM4 B T1 :=
  (old_Mattrans4_ok A T0).eq_of (old_Mattrans4_ok B T1) fun _ _ h1 h2 => mat4_inj h1.2 h2.2 (by rw [h1.1, h2.1, h])

def low4 (A : M4) : M4 := A.map (· &&& 0x0f)

theorem low4_mat (A : M4) : mat4 (low4 A) = mat4 A := by
  ext i j
  have hj := j.2
  simp only [low4, matOf, bitS, Fin.getElem_fin, Vector.getElem_map, BitVec.getLsbD_and]
  congr 1
  have : ∀ k, k < 4 → BitVec.getLsbD (0x0f : BitVec 8) k = true := by decide
  rw [this _ (by omega), Bool.and_true]

theorem low4_clean (A : M4) : CleanM4 (low4 A) := by
  intro i
  apply clean4_of
  intro k hk
  simp only [low4, Fin.getElem_fin, Vector.getElem_map, BitVec.getLsbD_and]
  rcases Nat.lt_or_ge k 8 with h | h
  · have : ∀ k, 4 ≤ k → k < 8 → BitVec.getLsbD (0x0f : BitVec 8) k = false := by decide
    rw [this k hk h, Bool.and_false]
  · rw [BitVec.getLsbD_of_ge _ _ h, Bool.false_and]

theorem old_MatMulMat4_ok (env : Env) (A B C0 : M4) :
    Ok (old.MatMulMatM4 env A B C0) (fun C => mat4 C = mat4 A * mat4 B ∧ CleanM4 C) := by
  have e : old.MatMulMatM4 env A B C0 = old.MatMulMatM4 env A (low4 B) C0 := by
    unfold old.MatMulMatM4
    rw [old_Mattrans4_low B (low4 B) _ _ (low4_mat B).symm]
  rw [e, old_MatMulMat4_eq env _ _ _ (low4_clean B), ← low4_mat B]
  exact MatMulMatM4_ok env A (low4 B) C0 (low4_clean B)

theorem old_isequalM4_eq (A B : M4) : old.isequalM4 A B = isequalM4 A B := by
  have := flagLoop 0 4 fun i => do pure ((← rd A i) != (← rd B i))
  simp only [bind_assoc, pure_bind] at this
  exact this

theorem old_isequalV4_eq (x y : V4) : old.isequalV4 x y = isequalV4 x y := by
  unfold old.isequalV4 isequalV4
  dsimp only
  split <;> rfl

theorem old_genMatpair4_eq (env : Env) (A B : M4) : old.genMatpairM4 env A B = genMatpairM4 env A B := by
  unfold old.genMatpairM4 genMatpairM4
  exact swap_init (identityM4_eq _) (identityM4_eq _) _ _

theorem old_genaffinepair4_eq (env : Env) (f g : Aff4) :
    old.genaffinepairM4 env f g = genaffinepairM4 env f g := by
  unfold old.genaffinepairM4 genaffinepairM4
  rw [old_genMatpair4_eq]

/-! ## 8 -/

theorem old_Mattrans8_ok (A T0 : M8) : Ok (old.MattransM8 A T0) (fun T => mat8 T = (mat8 A)ᵀ) := by
  unfold old.MattransM8
  rw [initM8_eq, C_pure_bind]
  exact (transS idOK8 (by omega) A).mono fun T h => h.1

theorem old_Mattrans8_eq (env : Env) (A T0 T1 : M8) : old.MattransM8 A T0 = MattransM8 env A T1 :=
  (old_Mattrans8_ok A T0).eq_of (MattransM8_ok env A T1) fun _ _ h h' => mat8_inj (h.trans h'.symm)

theorem old_MatMulMat8_eq (env : Env) (A B C0 : M8) : old.MatMulMatM8 env A B C0 = MatMulMatM8 env A B C0 := by
  unfold old.MatMulMatM8 MatMulMatM8
  rw [old_Mattrans8_eq env B _ (env.junkArr 8 8)]

theorem old_affinemix8_eq (env : Env) (f g m : Aff8) : old.affinemixM8 env f g m = affinemixM8 env f g m := by
  unfold old.affinemixM8 affinemixM8
  rw [old_MatMulMat8_eq]

theorem old_isequalM8_eq (A B : M8) : old.isequalM8 A B = isequalM8 A B := by
  have := flagLoop 0 8 fun i => do pure ((← rd A i) != (← rd B i))
  simp only [bind_assoc, pure_bind] at this
  exact this

theorem old_isequalV8_eq (x y : V8) : old.isequalV8 x y = isequalV8 x y := by
  unfold old.isequalV8 isequalV8
  dsimp only
  split <;> rfl

theorem old_genMatpair8_eq (env : Env) (A B : M8) : old.genMatpairM8 env A B = genMatpairM8 env A B := by
  unfold old.genMatpairM8 genMatpairM8
  exact swap_init (identityM8_eq _) (identityM8_eq _) _ _

theorem old_genaffinepair8_eq (env : Env) (f g : Aff8) :
    old.genaffinepairM8 env f g = genaffinepairM8 env f g := by
  unfold old.genaffinepairM8 genaffinepairM8
  rw [old_genMatpair8_eq]

/-! ## 16 -/

theorem old_Mattrans16_ok (A T0 : M16) : Ok (old.MattransM16 A T0) (fun T => mat16 T = (mat16 A)ᵀ) := by
  unfold old.MattransM16
  rw [initM16_eq, C_pure_bind]
  exact (transS idOK16 (by omega) A).mono fun T h => h.1

theorem old_Mattrans16_eq (env : Env) (A T0 T1 : M16) : old.MattransM16 A T0 = MattransM16 env A T1 :=
  (old_Mattrans16_ok A T0).eq_of (MattransM16_ok env A T1) fun _ _ h h' => mat16_inj (h.trans h'.symm)

theorem old_MatMulMat16_eq (env : Env) (A B C0 : M16) : old.MatMulMatM16 env A B C0 = MatMulMatM16 env A B C0 := by
  unfold old.MatMulMatM16 MatMulMatM16
  rw [old_Mattrans16_eq env B _ (env.junkArr 16 16)]

theorem old_affinemix16_eq (env : Env) (f g m : Aff16) : old.affinemixM16 env f g m = affinemixM16 env f g m := by
  unfold old.affinemixM16 affinemixM16
  rw [old_MatMulMat16_eq]

theorem old_isequalM16_eq (A B : M16) : old.isequalM16 A B = isequalM16 A B := by
  have := flagLoop 0 16 fun i => do pure ((← rd A i) != (← rd B i))
  simp only [bind_assoc, pure_bind] at this
  exact this

theorem old_isequalV16_eq (x y : V16) : old.isequalV16 x y = isequalV16 x y := by
  unfold old.isequalV16 isequalV16
  dsimp only
  split <;> rfl

theorem old_genMatpair16_eq (env : Env) (A B : M16) : old.genMatpairM16 env A B = genMatpairM16 env A B := by
  unfold old.genMatpairM16 genMatpairM16
  exact swap_init (identityM16_eq _) (identityM16_eq _) _ _

theorem old_genaffinepair16_eq (env : Env) (f g : Aff16) :
    old.genaffinepairM16 env f g = genaffinepairM16 env f g := by
  unfold old.genaffinepairM16 genaffinepairM16
  rw [old_genMatpair16_eq]

/-! ## 32 -/

theorem old_Mattrans32_ok (A T0 : M32) : Ok (old.MattransM32 A T0) (fun T => mat32 T = (mat32 A)ᵀ) := by
  unfold old.MattransM32
  rw [initM32_eq, C_pure_bind]
  exact (transS idOK32 (by omega) A).mono fun T h => h.1

theorem old_Mattrans32_eq (env : Env) (A T0 T1 : M32) : old.MattransM32 A T0 = MattransM32 env A T1 :=
  (old_Mattrans32_ok A T0).eq_of (MattransM32_ok env A T1) fun _ _ h h' => mat32_inj (h.trans h'.symm)

theorem old_MatMulMat32_eq (env : Env) (A B C0 : M32) : old.MatMulMatM32 env A B C0 = MatMulMatM32 env A B C0 := by
  unfold old.MatMulMatM32 MatMulMatM32
  rw [old_Mattrans32_eq env B _ (env.junkArr 32 32)]

theorem old_affinemix32_eq (env : Env) (f g m : Aff32) : old.affinemixM32 env f g m = affinemixM32 env f g m := by
  unfold old.affinemixM32 affinemixM32
  rw [old_MatMulMat32_eq]

theorem old_isequalM32_eq (A B : M32) : old.isequalM32 A B = isequalM32 A B := by
  have := flagLoop 0 32 fun i => do pure ((← rd A i) != (← rd B i))
  simp only [bind_assoc, pure_bind] at this
  exact this

theorem old_isequalV32_eq (x y : V32) : old.isequalV32 x y = isequalV32 x y := by
  unfold old.isequalV32 isequalV32
  dsimp only
  split <;> rfl

theorem old_genMatpair32_eq (env : Env) (A B : M32) : old.genMatpairM32 env A B = genMatpairM32 env A B := by
  unfold old.genMatpairM32 genMatpairM32
  exact swap_init (identityM32_eq _) (identityM32_eq _) _ _

/-! ## 64 -/

theorem old_Mattrans64_ok (A T0 : M64) : Ok (old.MattransM64 A T0) (fun T => mat64 T = (mat64 A)ᵀ) := by
  unfold old.MattransM64
  rw [initM64_eq, C_pure_bind]
  exact (transS idOK64 (by omega) A).mono fun T h => h.1

theorem old_Mattrans64_eq (env : Env) (A T0 T1 : M64) : old.MattransM64 A T0 = MattransM64 env A T1 :=
  (old_Mattrans64_ok A T0).eq_of (MattransM64_ok env A T1) fun _ _ h h' => mat64_inj (h.trans h'.symm)

theorem old_MatMulMat64_eq (env : Env) (A B C0 : M64) : old.MatMulMatM64 env A B C0 = MatMulMatM64 env A B C0 := by
  unfold old.MatMulMatM64 MatMulMatM64
  rw [old_Mattrans64_eq env B _ (env.junkArr 64 64)]

theorem old_affinemix64_eq (env : Env) (f g m : Aff64) : old.affinemixM64 env f g m = affinemixM64 env f g m := by
  unfold old.affinemixM64 affinemixM64
  rw [old_MatMulMat64_eq]

theorem old_isequalM64_eq (A B : M64) : old.isequalM64 A B = isequalM64 A B := by
  have := flagLoop 0 64 fun i => do pure ((← rd A i) != (← rd B i))
  simp only [bind_assoc, pure_bind] at this
  exact this

theorem old_isequalV64_eq (x y : V64) : old.isequalV64 x y = isequalV64 x y := by
  unfold old.isequalV64 isequalV64
  dsimp only
  split <;> rfl

theorem old_genMatpair64_eq (env : Env) (A B : M64) : old.genMatpairM64 env A B = genMatpairM64 env A B := by
  unfold old.genMatpairM64 genMatpairM64
  exact swap_init (identityM64_eq _) (identityM64_eq _) _ _

/-! ## 128 -/

theorem old_Mattrans128_ok (A T0 : M128) : Ok (old.MattransM128 A T0) (fun T => mat128 T = (mat128 A)ᵀ) := trans128 A T0

theorem old_Mattrans128_eq (env : Env) (A T0 T1 : M128) : old.MattransM128 A T0 = MattransM128 env A T1 :=
  (old_Mattrans128_ok A T0).eq_of (MattransM128_ok env A T1) fun _ _ h h' => mat128_inj (h.trans h'.symm)

theorem old_MatMulMat128_eq (env : Env) (A B C0 : M128) : old.MatMulMatM128 env A B C0 = MatMulMatM128 env A B C0 := by
  unfold old.MatMulMatM128 MatMulMatM128
  rw [old_Mattrans128_eq env B _ (env.junkArr2 64 2 128)]

theorem old_affinemix128_eq (env : Env) (f g m : Aff128) : old.affinemixM128 env f g m = affinemixM128 env f g m := by
  unfold old.affinemixM128 affinemixM128
  rw [old_MatMulMat128_eq]

theorem old_isequalM128_eq (A B : M128) : old.isequalM128 A B = isequalM128 A B := by
  unfold old.isequalM128 isequalM128
  apply flagLoop'
  intro i h
  rw [Nat.zero_add] at h
  refine ⟨A[i][0] != B[i][0] || A[i][1] != B[i][1], ?_, ?_⟩ <;>
  · simp only [rd2_ok, h, C_pure_bind, Nat.zero_lt_succ, Nat.reduceLT, forall_true_left]
    by_cases e0 : A[i][0] = B[i][0] <;> by_cases e1 : A[i][1] = B[i][1] <;> simp [e0, e1] <;> rfl

theorem old_isequalV128_eq (x y : V128) : old.isequalV128 x y = isequalV128 x y := by
  unfold old.isequalV128 isequalV128
  simp only [rd_ok, C_pure_bind, Nat.zero_lt_succ, Nat.reduceLT, forall_true_left]
  by_cases e0 : x[0] = y[0] <;> by_cases e1 : x[1] = y[1] <;> simp [e0, e1] <;> rfl

theorem old_genMatpair128_eq (env : Env) (A B : M128) : old.genMatpairM128 env A B = genMatpairM128 env A B := by
  unfold old.genMatpairM128 genMatpairM128
  obtain ⟨I, hI, -⟩ := identityM128_ok A
  obtain ⟨J, hJ, -⟩ := identityM128_ok B
  exact swap_init hI hJ _ _

end WB
