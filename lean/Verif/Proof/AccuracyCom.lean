import Verif.Proof.AccuracyLib

/-!
# The accuracy test: concatenation (helper lemmas)

Generated by `tools/gen_c60.py`.
-/
namespace WB.accuracy
open Matrix

theorem blockDiag_one {k a : Nat} {B : Fin k → Matrix (Fin a) (Fin a) (ZMod 2)} (h : ∀ b, B b = 1) :
    blockDiag B = 1 := by
  ext r c
  unfold blockDiag
  rw [h, Matrix.one_apply, Matrix.one_apply]
  by_cases e : r = c
  · subst e; simp
  · rw [if_neg e]
    split_ifs with h1 h2
    · refine absurd ?_ e
      refine Fin.ext ?_
      have e1 := Fin.ext_iff.1 h1
      have e2 := Fin.ext_iff.1 h2
      simp only [Fin.coe_divNat, Fin.coe_modNat] at e1 e2
      rw [← Nat.div_add_mod r.val a, ← Nat.div_add_mod c.val a, e1, e2]
    all_goals rfl

theorem concatV_const {k a : Nat} {v : Fin k → Fin a → ZMod 2} (h : ∀ b c, v b c = 1) :
    concatV v = fun _ => 1 := by
  funext c
  exact h _ _

/-- Whether the machine is little endian. -/
def isLE (env : Env) : Bool := env.endian == .little

theorem isLE_cases (env : Env) : (env.endian = .little ∧ isLE env = true) ∨ (env.endian = .big ∧ isLE env = false) := by
  unfold isLE
  cases env.endian <;> simp

theorem ones8 : ∀ c, vec8 (BitVec.allOnes 8) c = 1 := by decide +kernel
theorem ones16 : ∀ c, vec16 (BitVec.allOnes 16) c = 1 := by decide +kernel
theorem ones32 : ∀ c, vec32 (BitVec.allOnes 32) c = 1 := by decide +kernel
theorem ones64 : ∀ c, vec64 (BitVec.allOnes 64) c = 1 := by decide +kernel

theorem ones128 : ∀ c, vec128 #v[0xffffffffffffffff, 0xffffffffffffffff] c = 1 := by decide +kernel

theorem com8to32 (env : Env) (J : M32) (hJ : mat32 J = 1) (old : Aff32) :
    ∃ F : Aff32, affinecomM8to32 env ⟨idM8, 0xff⟩ ⟨idM8, 0xff⟩ ⟨idM8, 0xff⟩ ⟨idM8, 0xff⟩ old = .ok F ∧
      ∃ q : Int, isequalM32 F.Mat J = .ok q ∧ (q != 0 && F.Vec == 0xffffffff) = isLE env := by
  have hid : mat8 idM8 = 1 := mat_id idOK8
  obtain ⟨he, hl⟩ | ⟨he, hl⟩ := isLE_cases env
  · obtain ⟨F, hF, hM, hV⟩ := C20_affinecomM8to32 env he ⟨idM8, 0xff⟩ ⟨idM8, 0xff⟩ ⟨idM8, 0xff⟩ ⟨idM8, 0xff⟩ old
    refine ⟨F, hF, 1, ?_, ?_⟩
    · rw [C07_isequalM32, if_pos]
      refine mat32_inj ?_
      rw [hM, hJ]
      refine blockDiag_one (k := 4) (a := 8) ?_
      intro b; fin_cases b <;> exact hid
    · have : F.Vec = 0xffffffff := vec32_inj (by
        rw [hV, concatV_const (k := 4) (a := 8)]
        · funext c
          exact (ones32 c).symm
        · intro b c; fin_cases b <;> exact ones8 c)
      rw [this, hl]; rfl
  · obtain ⟨M, hM, hm, -⟩ := C22_MatrixcomM8to32 env he idM8 idM8 idM8 idM8 old.Mat
    obtain ⟨V, hV, -⟩ := C22_VectorcomV8to32 env he 0xff 0xff 0xff 0xff old.Vec
    refine ⟨⟨M, V⟩, ?_, 0, ?_, ?_⟩
    · unfold affinecomM8to32
      rw [hM, C_pure_bind, hV]; rfl
    · rw [C07_isequalM32, if_neg]
      rintro rfl
      have h0 := hm 0 0
      rw [if_neg (by decide)] at h0
      have h1 := congrFun (congrFun hJ 0) 0
      rw [Matrix.one_apply_eq] at h1
      exact absurd (h1.symm.trans h0) (by decide)
    · rw [hl]; rfl

theorem com8to64 (env : Env) (J : M64) (hJ : mat64 J = 1) (old : Aff64) :
    ∃ F : Aff64, affinecomM8to64 env ⟨idM8, 0xff⟩ ⟨idM8, 0xff⟩ ⟨idM8, 0xff⟩ ⟨idM8, 0xff⟩ ⟨idM8, 0xff⟩ ⟨idM8, 0xff⟩ ⟨idM8, 0xff⟩ ⟨idM8, 0xff⟩ old = .ok F ∧
      ∃ q : Int, isequalM64 F.Mat J = .ok q ∧ (q != 0 && F.Vec == 0xffffffffffffffff) = isLE env := by
  have hid : mat8 idM8 = 1 := mat_id idOK8
  obtain ⟨he, hl⟩ | ⟨he, hl⟩ := isLE_cases env
  · obtain ⟨F, hF, hM, hV⟩ := C20_affinecomM8to64 env he ⟨idM8, 0xff⟩ ⟨idM8, 0xff⟩ ⟨idM8, 0xff⟩ ⟨idM8, 0xff⟩ ⟨idM8, 0xff⟩ ⟨idM8, 0xff⟩ ⟨idM8, 0xff⟩ ⟨idM8, 0xff⟩ old
    refine ⟨F, hF, 1, ?_, ?_⟩
    · rw [C07_isequalM64, if_pos]
      refine mat64_inj ?_
      rw [hM, hJ]
      refine blockDiag_one (k := 8) (a := 8) ?_
      intro b; fin_cases b <;> exact hid
    · have : F.Vec = 0xffffffffffffffff := vec64_inj (by
        rw [hV, concatV_const (k := 8) (a := 8)]
        · funext c
          exact (ones64 c).symm
        · intro b c; fin_cases b <;> exact ones8 c)
      rw [this, hl]; rfl
  · obtain ⟨M, hM, hm, -⟩ := C22_MatrixcomM8to64 env he idM8 idM8 idM8 idM8 idM8 idM8 idM8 idM8 old.Mat
    obtain ⟨V, hV, -⟩ := C22_VectorcomV8to64 env he 0xff 0xff 0xff 0xff 0xff 0xff 0xff 0xff old.Vec
    refine ⟨⟨M, V⟩, ?_, 0, ?_, ?_⟩
    · unfold affinecomM8to64
      rw [hM, C_pure_bind, hV]; rfl
    · rw [C07_isequalM64, if_neg]
      rintro rfl
      have h0 := hm 0 0
      rw [if_neg (by decide)] at h0
      have h1 := congrFun (congrFun hJ 0) 0
      rw [Matrix.one_apply_eq] at h1
      exact absurd (h1.symm.trans h0) (by decide)
    · rw [hl]; rfl

theorem com8to128 (env : Env) (J : M128) (hJ : mat128 J = 1) (old : Aff128) :
    ∃ F : Aff128, affinecomM8to128 env ⟨idM8, 0xff⟩ ⟨idM8, 0xff⟩ ⟨idM8, 0xff⟩ ⟨idM8, 0xff⟩ ⟨idM8, 0xff⟩ ⟨idM8, 0xff⟩ ⟨idM8, 0xff⟩ ⟨idM8, 0xff⟩ ⟨idM8, 0xff⟩ ⟨idM8, 0xff⟩ ⟨idM8, 0xff⟩ ⟨idM8, 0xff⟩ ⟨idM8, 0xff⟩ ⟨idM8, 0xff⟩ ⟨idM8, 0xff⟩ ⟨idM8, 0xff⟩ old = .ok F ∧
      ∃ q : Int, isequalM128 F.Mat J = .ok q ∧ (q != 0 && F.Vec[0] == 0xffffffffffffffff && F.Vec[1] == 0xffffffffffffffff) = isLE env := by
  have hid : mat8 idM8 = 1 := mat_id idOK8
  obtain ⟨he, hl⟩ | ⟨he, hl⟩ := isLE_cases env
  · obtain ⟨F, hF, hM, hV⟩ := C20_affinecomM8to128 env he ⟨idM8, 0xff⟩ ⟨idM8, 0xff⟩ ⟨idM8, 0xff⟩ ⟨idM8, 0xff⟩ ⟨idM8, 0xff⟩ ⟨idM8, 0xff⟩ ⟨idM8, 0xff⟩ ⟨idM8, 0xff⟩ ⟨idM8, 0xff⟩ ⟨idM8, 0xff⟩ ⟨idM8, 0xff⟩ ⟨idM8, 0xff⟩ ⟨idM8, 0xff⟩ ⟨idM8, 0xff⟩ ⟨idM8, 0xff⟩ ⟨idM8, 0xff⟩ old
    refine ⟨F, hF, 1, ?_, ?_⟩
    · rw [C07_isequalM128, if_pos]
      refine mat128_inj ?_
      rw [hM, hJ]
      refine blockDiag_one (k := 16) (a := 8) ?_
      intro b; fin_cases b <;> exact hid
    · have : F.Vec = #v[0xffffffffffffffff, 0xffffffffffffffff] := vec128_inj (by
        rw [hV, concatV_const (k := 16) (a := 8)]
        · funext c
          exact (ones128 c).symm
        · intro b c; fin_cases b <;> exact ones8 c)
      rw [this, hl]; rfl
  · obtain ⟨M, hM, hm, -⟩ := C22_MatrixcomM8to128 env he idM8 idM8 idM8 idM8 idM8 idM8 idM8 idM8 idM8 idM8 idM8 idM8 idM8 idM8 idM8 idM8 old.Mat
    obtain ⟨V, hV, -⟩ := C22_VectorcomV8to128 env he 0xff 0xff 0xff 0xff 0xff 0xff 0xff 0xff 0xff 0xff 0xff 0xff 0xff 0xff 0xff 0xff old.Vec
    refine ⟨⟨M, V⟩, ?_, 0, ?_, ?_⟩
    · unfold affinecomM8to128
      rw [hM, C_pure_bind, hV]; rfl
    · rw [C07_isequalM128, if_neg]
      rintro rfl
      have h0 := hm 0 0
      rw [if_neg (by decide)] at h0
      have h1 := congrFun (congrFun hJ 0) 0
      rw [Matrix.one_apply_eq] at h1
      exact absurd (h1.symm.trans h0) (by decide)
    · rw [hl]; rfl

theorem com16to64 (env : Env) (J : M64) (hJ : mat64 J = 1) (old : Aff64) :
    ∃ F : Aff64, affinecomM16to64 env ⟨idM16, 0xffff⟩ ⟨idM16, 0xffff⟩ ⟨idM16, 0xffff⟩ ⟨idM16, 0xffff⟩ old = .ok F ∧
      ∃ q : Int, isequalM64 F.Mat J = .ok q ∧ (q != 0 && F.Vec == 0xffffffffffffffff) = isLE env := by
  have hid : mat16 idM16 = 1 := mat_id idOK16
  obtain ⟨he, hl⟩ | ⟨he, hl⟩ := isLE_cases env
  · obtain ⟨F, hF, hM, hV⟩ := C20_affinecomM16to64 env he ⟨idM16, 0xffff⟩ ⟨idM16, 0xffff⟩ ⟨idM16, 0xffff⟩ ⟨idM16, 0xffff⟩ old
    refine ⟨F, hF, 1, ?_, ?_⟩
    · rw [C07_isequalM64, if_pos]
      refine mat64_inj ?_
      rw [hM, hJ]
      refine blockDiag_one (k := 4) (a := 16) ?_
      intro b; fin_cases b <;> exact hid
    · have : F.Vec = 0xffffffffffffffff := vec64_inj (by
        rw [hV, concatV_const (k := 4) (a := 16)]
        · funext c
          exact (ones64 c).symm
        · intro b c; fin_cases b <;> exact ones16 c)
      rw [this, hl]; rfl
  · obtain ⟨M, hM, hm, -⟩ := C22_MatrixcomM16to64 env he idM16 idM16 idM16 idM16 old.Mat
    obtain ⟨V, hV, -⟩ := C22_VectorcomV16to64 env he 0xffff 0xffff 0xffff 0xffff old.Vec
    refine ⟨⟨M, V⟩, ?_, 0, ?_, ?_⟩
    · unfold affinecomM16to64
      rw [hM, C_pure_bind, hV]; rfl
    · rw [C07_isequalM64, if_neg]
      rintro rfl
      have h0 := hm 0 0
      rw [if_neg (by decide)] at h0
      have h1 := congrFun (congrFun hJ 0) 0
      rw [Matrix.one_apply_eq] at h1
      exact absurd (h1.symm.trans h0) (by decide)
    · rw [hl]; rfl

theorem com32to128 (env : Env) (J : M128) (hJ : mat128 J = 1) (old : Aff128) :
    ∃ F : Aff128, affinecomM32to128 env ⟨idM32, 0xffffffff⟩ ⟨idM32, 0xffffffff⟩ ⟨idM32, 0xffffffff⟩ ⟨idM32, 0xffffffff⟩ old = .ok F ∧
      ∃ q : Int, isequalM128 F.Mat J = .ok q ∧ (q != 0 && F.Vec[0] == 0xffffffffffffffff && F.Vec[1] == 0xffffffffffffffff) = isLE env := by
  have hid : mat32 idM32 = 1 := mat_id idOK32
  obtain ⟨he, hl⟩ | ⟨he, hl⟩ := isLE_cases env
  · obtain ⟨F, hF, hM, hV⟩ := C20_affinecomM32to128 env he ⟨idM32, 0xffffffff⟩ ⟨idM32, 0xffffffff⟩ ⟨idM32, 0xffffffff⟩ ⟨idM32, 0xffffffff⟩ old
    refine ⟨F, hF, 1, ?_, ?_⟩
    · rw [C07_isequalM128, if_pos]
      refine mat128_inj ?_
      rw [hM, hJ]
      refine blockDiag_one (k := 4) (a := 32) ?_
      intro b; fin_cases b <;> exact hid
    · have : F.Vec = #v[0xffffffffffffffff, 0xffffffffffffffff] := vec128_inj (by
        rw [hV, concatV_const (k := 4) (a := 32)]
        · funext c
          exact (ones128 c).symm
        · intro b c; fin_cases b <;> exact ones32 c)
      rw [this, hl]; rfl
  · obtain ⟨M, hM, hm, -⟩ := C22_MatrixcomM32to128 env he idM32 idM32 idM32 idM32 old.Mat
    obtain ⟨V, hV, -⟩ := C22_VectorcomV32to128 env he 0xffffffff 0xffffffff 0xffffffff 0xffffffff old.Vec
    refine ⟨⟨M, V⟩, ?_, 0, ?_, ?_⟩
    · unfold affinecomM32to128
      rw [hM, C_pure_bind, hV]; rfl
    · rw [C07_isequalM128, if_neg]
      rintro rfl
      have h0 := hm 0 0
      rw [if_neg (by decide)] at h0
      have h1 := congrFun (congrFun hJ 0) 0
      rw [Matrix.one_apply_eq] at h1
      exact absurd (h1.symm.trans h0) (by decide)
    · rw [hl]; rfl

theorem com16to128 (env : Env) (J : M128) (hJ : mat128 J = 1) (old : Aff128) :
    ∃ F : Aff128, affinecomM16to128 env ⟨idM16, 0xffff⟩ ⟨idM16, 0xffff⟩ ⟨idM16, 0xffff⟩ ⟨idM16, 0xffff⟩ ⟨idM16, 0xffff⟩ ⟨idM16, 0xffff⟩ ⟨idM16, 0xffff⟩ ⟨idM16, 0xffff⟩ old = .ok F ∧
      ∃ q : Int, isequalM128 F.Mat J = .ok q ∧ (q != 0 && F.Vec[0] == 0xffffffffffffffff && F.Vec[1] == 0xffffffffffffffff) = isLE env := by
  have hid : mat16 idM16 = 1 := mat_id idOK16
  obtain ⟨he, hl⟩ | ⟨he, hl⟩ := isLE_cases env
  · obtain ⟨F, hF, hM, hV⟩ := C20_affinecomM16to128 env he ⟨idM16, 0xffff⟩ ⟨idM16, 0xffff⟩ ⟨idM16, 0xffff⟩ ⟨idM16, 0xffff⟩ ⟨idM16, 0xffff⟩ ⟨idM16, 0xffff⟩ ⟨idM16, 0xffff⟩ ⟨idM16, 0xffff⟩ old
    refine ⟨F, hF, 1, ?_, ?_⟩
    · rw [C07_isequalM128, if_pos]
      refine mat128_inj ?_
      rw [hM, hJ]
      refine blockDiag_one (k := 8) (a := 16) ?_
      intro b; fin_cases b <;> exact hid
    · have : F.Vec = #v[0xffffffffffffffff, 0xffffffffffffffff] := vec128_inj (by
        rw [hV, concatV_const (k := 8) (a := 16)]
        · funext c
          exact (ones128 c).symm
        · intro b c; fin_cases b <;> exact ones16 c)
      rw [this, hl]; rfl
  · obtain ⟨M, hM, hm, -⟩ := C22_MatrixcomM16to128 env he idM16 idM16 idM16 idM16 idM16 idM16 idM16 idM16 old.Mat
    obtain ⟨V, hV, -⟩ := C22_VectorcomV16to128 env he 0xffff 0xffff 0xffff 0xffff 0xffff 0xffff 0xffff 0xffff old.Vec
    refine ⟨⟨M, V⟩, ?_, 0, ?_, ?_⟩
    · unfold affinecomM16to128
      rw [hM, C_pure_bind, hV]; rfl
    · rw [C07_isequalM128, if_neg]
      rintro rfl
      have h0 := hm 0 0
      rw [if_neg (by decide)] at h0
      have h1 := congrFun (congrFun hJ 0) 0
      rw [Matrix.one_apply_eq] at h1
      exact absurd (h1.symm.trans h0) (by decide)
    · rw [hl]; rfl

end WB.accuracy
