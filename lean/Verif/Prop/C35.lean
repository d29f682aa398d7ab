import Verif.Prop.C05
import Verif.Prop.C06
import Verif.Prop.C13
import Verif.Proof.MulAll
import Verif.Prop.Examples

/-!
# C35 — ring laws through the API
-/
namespace WB
open Matrix

/-- C35: products are associative, bit for bit. -/
theorem C35_mul_assocM4 (env : Env) (A B C X0 X1 X2 X3 : M4) (hB : CleanM4 B) (hC : CleanM4 C) :
    ∃ AB BC R, MatMulMatM4 env A B X0 = .ok AB ∧ MatMulMatM4 env B C X1 = .ok BC ∧
      MatMulMatM4 env AB C X2 = .ok R ∧ MatMulMatM4 env A BC X3 = .ok R := by
  obtain ⟨P, hP, eP, cP⟩ := MatMulMatM4_ok env A B X0 hB
  obtain ⟨Q, hQ, eQ, cQ⟩ := MatMulMatM4_ok env B C X1 hC
  obtain ⟨R, hR, eR, cR⟩ := MatMulMatM4_ok env P C X2 hC
  obtain ⟨S, hS, eS, cS⟩ := MatMulMatM4_ok env A Q X3 cQ
  obtain rfl : S = R := mat4_inj cS cR (by rw [eS, eR, eP, eQ, Matrix.mul_assoc])
  exact ⟨P, Q, _, hP, hQ, hR, hS⟩

/-- C35: left distributivity. -/
theorem C35_mul_addM4 (env : Env) (A B C X0 X1 X2 X3 X4 : M4) (hB : CleanM4 B) (hC : CleanM4 C) :
    ∃ S AB AC R, MatAddMatM4 B C X0 = .ok S ∧ MatMulMatM4 env A B X1 = .ok AB ∧ MatMulMatM4 env A C X2 = .ok AC ∧
      MatMulMatM4 env A S X3 = .ok R ∧ MatAddMatM4 AB AC X4 = .ok R := by
  obtain ⟨S, hS, eS, cS⟩ := C05_MatAddMatM4 B C X0
  obtain ⟨P, hP, eP, cP⟩ := MatMulMatM4_ok env A B X1 hB
  obtain ⟨Q, hQ, eQ, cQ⟩ := MatMulMatM4_ok env A C X2 hC
  obtain ⟨R, hR, eR, cR⟩ := MatMulMatM4_ok env A S X3 (cS hB hC)
  obtain ⟨T, hT, eT, cT⟩ := C05_MatAddMatM4 P Q X4
  have cT := cT cP cQ
  obtain rfl : T = R := mat4_inj cT cR (by rw [eT, eR, eP, eQ, eS, Matrix.mul_add])
  exact ⟨S, P, Q, _, hS, hP, hQ, hR, hT⟩

/-- C35: right distributivity. -/
theorem C35_add_mulM4 (env : Env) (A B C X0 X1 X2 X3 X4 : M4) (hC : CleanM4 C) :
    ∃ S AC BC R, MatAddMatM4 A B X0 = .ok S ∧ MatMulMatM4 env A C X1 = .ok AC ∧ MatMulMatM4 env B C X2 = .ok BC ∧
      MatMulMatM4 env S C X3 = .ok R ∧ MatAddMatM4 AC BC X4 = .ok R := by
  obtain ⟨S, hS, eS, cS⟩ := C05_MatAddMatM4 A B X0
  obtain ⟨P, hP, eP, cP⟩ := MatMulMatM4_ok env A C X1 hC
  obtain ⟨Q, hQ, eQ, cQ⟩ := MatMulMatM4_ok env B C X2 hC
  obtain ⟨R, hR, eR, cR⟩ := MatMulMatM4_ok env S C X3 hC
  obtain ⟨T, hT, eT, cT⟩ := C05_MatAddMatM4 P Q X4
  have cT := cT cP cQ
  obtain rfl : T = R := mat4_inj cT cR (by rw [eT, eR, eP, eQ, eS, Matrix.add_mul])
  exact ⟨S, P, Q, _, hS, hP, hQ, hR, hT⟩

/-- C35: the matrix made by `identityM4` is neutral on both sides. -/
theorem C35_oneM4 (env : Env) (A X0 X1 X2 : M4) (hA : CleanM4 A) :
    ∃ I, identityM4 X0 = .ok I ∧ MatMulMatM4 env I A X1 = .ok A ∧ MatMulMatM4 env A I X2 = .ok A := by
  obtain ⟨I, hI, eI, cI⟩ := C06_identityM4 X0
  obtain ⟨P, hP, eP, cP⟩ := MatMulMatM4_ok env I A X1 hA
  obtain ⟨Q, hQ, eQ, cQ⟩ := MatMulMatM4_ok env A I X2 cI
  obtain rfl : P = A := mat4_inj cP hA (by rw [eP, eI, Matrix.one_mul])
  obtain rfl : Q = P := mat4_inj cQ hA (by rw [eQ, eI, Matrix.mul_one])
  exact ⟨I, hI, hP, hQ⟩

/-- C35: the transpose of a product is the product of the transposes in reverse order. -/
theorem C35_transposeM4 (env : Env) (A B X0 X1 X2 X3 X4 : M4) (hA : CleanM4 A) (hB : CleanM4 B) :
    ∃ AB AT BT R, MatMulMatM4 env A B X0 = .ok AB ∧ MattransM4 env A X1 = .ok AT ∧ MattransM4 env B X2 = .ok BT ∧
      MattransM4 env AB X3 = .ok R ∧ MatMulMatM4 env BT AT X4 = .ok R := by
  obtain ⟨P, hP, eP, cP⟩ := MatMulMatM4_ok env A B X0 hB
  obtain ⟨S, hS, eS, cS⟩ := MattransM4_ok env A X1 hA
  obtain ⟨T, hT, eT, cT⟩ := MattransM4_ok env B X2 hB
  obtain ⟨R, hR, eR, cR⟩ := MattransM4_ok env P X3 cP
  obtain ⟨Q, hQ, eQ, cQ⟩ := MatMulMatM4_ok env T S X4 cS
  obtain rfl : Q = R := mat4_inj cQ cR (by rw [eQ, eR, eP, eS, eT, Matrix.transpose_mul])
  exact ⟨P, S, T, _, hP, hS, hT, hR, hQ⟩

/-- C35: the inverse of a product is the product of the inverses in reverse order. -/
theorem C35_invsM4 (env : Env) (A B X0 X1 X2 X3 X4 : M4) (hB : CleanM4 B) (uA : IsUnit (mat4 A))
    (uB : IsUnit (mat4 B)) :
    ∃ AB AI BI R, MatMulMatM4 env A B X0 = .ok AB ∧ invsM4 A X1 = .ok AI ∧ invsM4 B X2 = .ok BI ∧
      invsM4 AB X3 = .ok R ∧ MatMulMatM4 env BI AI X4 = .ok R := by
  obtain ⟨P, hP, eP, cP⟩ := MatMulMatM4_ok env A B X0 hB
  have uP : IsUnit (mat4 P) := eP ▸ uA.mul uB
  obtain ⟨S, hS, eS, fS, cS⟩ := C13_invsM4 A X1 uA
  obtain ⟨T, hT, eT, fT, cT⟩ := C13_invsM4 B X2 uB
  obtain ⟨R, hR, eR, fR, cR⟩ := C13_invsM4 P X3 uP
  obtain ⟨Q, hQ, eQ, cQ⟩ := MatMulMatM4_ok env T S X4 cS
  obtain rfl : Q = R := mat4_inj cQ cR (by refine mat_inv_unique (A := mat4 P) ?_ eR; rw [eQ, eP, Matrix.mul_assoc, ← Matrix.mul_assoc (mat4 B), eT, Matrix.one_mul, eS])
  exact ⟨P, S, T, _, hP, hS, hT, hR, hQ⟩

example : MatMulMatM4 exEnv exA4 exB4 exB4 = .ok #v[0x4, 0xf, 0x2, 0xd] ∧
    MattransM4 exEnv #v[0x4, 0xf, 0x2, 0xd] exB4 = .ok #v[0x5, 0xd, 0x6, 0x5] ∧
    (do MatMulMatM4 exEnv (← MattransM4 exEnv exB4 exA4) (← MattransM4 exEnv exA4 exA4) exB4) =
      .ok #v[0x5, 0xd, 0x6, 0x5] := by decide +kernel

example : ∃ A B : M4, CleanM4 A ∧ CleanM4 B ∧ IsUnit (mat4 A) ∧ IsUnit (mat4 B) := by
  obtain ⟨⟨⟨A, B⟩, w⟩, h, hAB, hc1, hc2, _⟩ := genMatpairM4_ok exEnv exB4 exB4 exWorld
  exact ⟨A, B, hc1, hc2, ⟨⟨_, _, hAB, mat_comm hAB⟩, rfl⟩, ⟨⟨_, _, mat_comm hAB, hAB⟩, rfl⟩⟩

/-- C35: products are associative, bit for bit. -/
theorem C35_mul_assocM8 (env : Env) (A B C X0 X1 X2 X3 : M8) :
    ∃ AB BC R, MatMulMatM8 env A B X0 = .ok AB ∧ MatMulMatM8 env B C X1 = .ok BC ∧
      MatMulMatM8 env AB C X2 = .ok R ∧ MatMulMatM8 env A BC X3 = .ok R := by
  obtain ⟨P, hP, eP⟩ := MatMulMatM8_ok env A B X0
  obtain ⟨Q, hQ, eQ⟩ := MatMulMatM8_ok env B C X1
  obtain ⟨R, hR, eR⟩ := MatMulMatM8_ok env P C X2
  obtain ⟨S, hS, eS⟩ := MatMulMatM8_ok env A Q X3
  obtain rfl : S = R := mat8_inj (by rw [eS, eR, eP, eQ, Matrix.mul_assoc])
  exact ⟨P, Q, _, hP, hQ, hR, hS⟩

/-- C35: left distributivity. -/
theorem C35_mul_addM8 (env : Env) (A B C X0 X1 X2 X3 X4 : M8) :
    ∃ S AB AC R, MatAddMatM8 B C X0 = .ok S ∧ MatMulMatM8 env A B X1 = .ok AB ∧ MatMulMatM8 env A C X2 = .ok AC ∧
      MatMulMatM8 env A S X3 = .ok R ∧ MatAddMatM8 AB AC X4 = .ok R := by
  obtain ⟨S, hS, eS⟩ := C05_MatAddMatM8 B C X0
  obtain ⟨P, hP, eP⟩ := MatMulMatM8_ok env A B X1
  obtain ⟨Q, hQ, eQ⟩ := MatMulMatM8_ok env A C X2
  obtain ⟨R, hR, eR⟩ := MatMulMatM8_ok env A S X3
  obtain ⟨T, hT, eT⟩ := C05_MatAddMatM8 P Q X4
  obtain rfl : T = R := mat8_inj (by rw [eT, eR, eP, eQ, eS, Matrix.mul_add])
  exact ⟨S, P, Q, _, hS, hP, hQ, hR, hT⟩

/-- C35: right distributivity. -/
theorem C35_add_mulM8 (env : Env) (A B C X0 X1 X2 X3 X4 : M8) :
    ∃ S AC BC R, MatAddMatM8 A B X0 = .ok S ∧ MatMulMatM8 env A C X1 = .ok AC ∧ MatMulMatM8 env B C X2 = .ok BC ∧
      MatMulMatM8 env S C X3 = .ok R ∧ MatAddMatM8 AC BC X4 = .ok R := by
  obtain ⟨S, hS, eS⟩ := C05_MatAddMatM8 A B X0
  obtain ⟨P, hP, eP⟩ := MatMulMatM8_ok env A C X1
  obtain ⟨Q, hQ, eQ⟩ := MatMulMatM8_ok env B C X2
  obtain ⟨R, hR, eR⟩ := MatMulMatM8_ok env S C X3
  obtain ⟨T, hT, eT⟩ := C05_MatAddMatM8 P Q X4
  obtain rfl : T = R := mat8_inj (by rw [eT, eR, eP, eQ, eS, Matrix.add_mul])
  exact ⟨S, P, Q, _, hS, hP, hQ, hR, hT⟩

/-- C35: the matrix made by `identityM8` is neutral on both sides. -/
theorem C35_oneM8 (env : Env) (A X0 X1 X2 : M8) :
    ∃ I, identityM8 X0 = .ok I ∧ MatMulMatM8 env I A X1 = .ok A ∧ MatMulMatM8 env A I X2 = .ok A := by
  obtain ⟨I, hI, eI⟩ := C06_identityM8 X0
  obtain ⟨P, hP, eP⟩ := MatMulMatM8_ok env I A X1
  obtain ⟨Q, hQ, eQ⟩ := MatMulMatM8_ok env A I X2
  obtain rfl : P = A := mat8_inj (by rw [eP, eI, Matrix.one_mul])
  obtain rfl : Q = P := mat8_inj (by rw [eQ, eI, Matrix.mul_one])
  exact ⟨I, hI, hP, hQ⟩

/-- C35: the transpose of a product is the product of the transposes in reverse order. -/
theorem C35_transposeM8 (env : Env) (A B X0 X1 X2 X3 X4 : M8) :
    ∃ AB AT BT R, MatMulMatM8 env A B X0 = .ok AB ∧ MattransM8 env A X1 = .ok AT ∧ MattransM8 env B X2 = .ok BT ∧
      MattransM8 env AB X3 = .ok R ∧ MatMulMatM8 env BT AT X4 = .ok R := by
  obtain ⟨P, hP, eP⟩ := MatMulMatM8_ok env A B X0
  obtain ⟨S, hS, eS⟩ := MattransM8_ok env A X1
  obtain ⟨T, hT, eT⟩ := MattransM8_ok env B X2
  obtain ⟨R, hR, eR⟩ := MattransM8_ok env P X3
  obtain ⟨Q, hQ, eQ⟩ := MatMulMatM8_ok env T S X4
  obtain rfl : Q = R := mat8_inj (by rw [eQ, eR, eP, eS, eT, Matrix.transpose_mul])
  exact ⟨P, S, T, _, hP, hS, hT, hR, hQ⟩

/-- C35: the inverse of a product is the product of the inverses in reverse order. -/
theorem C35_invsM8 (env : Env) (A B X0 X1 X2 X3 X4 : M8) (uA : IsUnit (mat8 A))
    (uB : IsUnit (mat8 B)) :
    ∃ AB AI BI R, MatMulMatM8 env A B X0 = .ok AB ∧ invsM8 A X1 = .ok AI ∧ invsM8 B X2 = .ok BI ∧
      invsM8 AB X3 = .ok R ∧ MatMulMatM8 env BI AI X4 = .ok R := by
  obtain ⟨P, hP, eP⟩ := MatMulMatM8_ok env A B X0
  have uP : IsUnit (mat8 P) := eP ▸ uA.mul uB
  obtain ⟨S, hS, eS, fS⟩ := C13_invsM8 A X1 uA
  obtain ⟨T, hT, eT, fT⟩ := C13_invsM8 B X2 uB
  obtain ⟨R, hR, eR, fR⟩ := C13_invsM8 P X3 uP
  obtain ⟨Q, hQ, eQ⟩ := MatMulMatM8_ok env T S X4
  obtain rfl : Q = R := mat8_inj (by refine mat_inv_unique (A := mat8 P) ?_ eR; rw [eQ, eP, Matrix.mul_assoc, ← Matrix.mul_assoc (mat8 B), eT, Matrix.one_mul, eS])
  exact ⟨P, S, T, _, hP, hS, hT, hR, hQ⟩

example : MatMulMatM8 exEnv exA8 exB8 exB8 = .ok #v[0x44, 0xef, 0xf2, 0xc4, 0x90, 0x8c, 0xa1, 0xb4] ∧
    MattransM8 exEnv #v[0x44, 0xef, 0xf2, 0xc4, 0x90, 0x8c, 0xa1, 0xb4] exB8 = .ok #v[0x7f, 0xf0, 0x63, 0x29, 0x44, 0xd5, 0x60, 0x42] ∧
    (do MatMulMatM8 exEnv (← MattransM8 exEnv exB8 exA8) (← MattransM8 exEnv exA8 exA8) exB8) =
      .ok #v[0x7f, 0xf0, 0x63, 0x29, 0x44, 0xd5, 0x60, 0x42] := by decide +kernel

example : ∃ A B : M8, IsUnit (mat8 A) ∧ IsUnit (mat8 B) := by
  obtain ⟨⟨⟨A, B⟩, w⟩, h, hAB, _⟩ := genMatpairM8_ok exEnv exB8 exB8 exWorld
  exact ⟨A, B, ⟨⟨_, _, hAB, mat_comm hAB⟩, rfl⟩, ⟨⟨_, _, mat_comm hAB, hAB⟩, rfl⟩⟩

/-- C35: products are associative, bit for bit. -/
theorem C35_mul_assocM16 (env : Env) (A B C X0 X1 X2 X3 : M16) :
    ∃ AB BC R, MatMulMatM16 env A B X0 = .ok AB ∧ MatMulMatM16 env B C X1 = .ok BC ∧
      MatMulMatM16 env AB C X2 = .ok R ∧ MatMulMatM16 env A BC X3 = .ok R := by
  obtain ⟨P, hP, eP⟩ := MatMulMatM16_ok env A B X0
  obtain ⟨Q, hQ, eQ⟩ := MatMulMatM16_ok env B C X1
  obtain ⟨R, hR, eR⟩ := MatMulMatM16_ok env P C X2
  obtain ⟨S, hS, eS⟩ := MatMulMatM16_ok env A Q X3
  obtain rfl : S = R := mat16_inj (by rw [eS, eR, eP, eQ, Matrix.mul_assoc])
  exact ⟨P, Q, _, hP, hQ, hR, hS⟩

/-- C35: left distributivity. -/
theorem C35_mul_addM16 (env : Env) (A B C X0 X1 X2 X3 X4 : M16) :
    ∃ S AB AC R, MatAddMatM16 B C X0 = .ok S ∧ MatMulMatM16 env A B X1 = .ok AB ∧ MatMulMatM16 env A C X2 = .ok AC ∧
      MatMulMatM16 env A S X3 = .ok R ∧ MatAddMatM16 AB AC X4 = .ok R := by
  obtain ⟨S, hS, eS⟩ := C05_MatAddMatM16 B C X0
  obtain ⟨P, hP, eP⟩ := MatMulMatM16_ok env A B X1
  obtain ⟨Q, hQ, eQ⟩ := MatMulMatM16_ok env A C X2
  obtain ⟨R, hR, eR⟩ := MatMulMatM16_ok env A S X3
  obtain ⟨T, hT, eT⟩ := C05_MatAddMatM16 P Q X4
  obtain rfl : T = R := mat16_inj (by rw [eT, eR, eP, eQ, eS, Matrix.mul_add])
  exact ⟨S, P, Q, _, hS, hP, hQ, hR, hT⟩

/-- C35: right distributivity. -/
theorem C35_add_mulM16 (env : Env) (A B C X0 X1 X2 X3 X4 : M16) :
    ∃ S AC BC R, MatAddMatM16 A B X0 = .ok S ∧ MatMulMatM16 env A C X1 = .ok AC ∧ MatMulMatM16 env B C X2 = .ok BC ∧
      MatMulMatM16 env S C X3 = .ok R ∧ MatAddMatM16 AC BC X4 = .ok R := by
  obtain ⟨S, hS, eS⟩ := C05_MatAddMatM16 A B X0
  obtain ⟨P, hP, eP⟩ := MatMulMatM16_ok env A C X1
  obtain ⟨Q, hQ, eQ⟩ := MatMulMatM16_ok env B C X2
  obtain ⟨R, hR, eR⟩ := MatMulMatM16_ok env S C X3
  obtain ⟨T, hT, eT⟩ := C05_MatAddMatM16 P Q X4
  obtain rfl : T = R := mat16_inj (by rw [eT, eR, eP, eQ, eS, Matrix.add_mul])
  exact ⟨S, P, Q, _, hS, hP, hQ, hR, hT⟩

/-- C35: the matrix made by `identityM16` is neutral on both sides. -/
theorem C35_oneM16 (env : Env) (A X0 X1 X2 : M16) :
    ∃ I, identityM16 X0 = .ok I ∧ MatMulMatM16 env I A X1 = .ok A ∧ MatMulMatM16 env A I X2 = .ok A := by
  obtain ⟨I, hI, eI⟩ := C06_identityM16 X0
  obtain ⟨P, hP, eP⟩ := MatMulMatM16_ok env I A X1
  obtain ⟨Q, hQ, eQ⟩ := MatMulMatM16_ok env A I X2
  obtain rfl : P = A := mat16_inj (by rw [eP, eI, Matrix.one_mul])
  obtain rfl : Q = P := mat16_inj (by rw [eQ, eI, Matrix.mul_one])
  exact ⟨I, hI, hP, hQ⟩

/-- C35: the transpose of a product is the product of the transposes in reverse order. -/
theorem C35_transposeM16 (env : Env) (A B X0 X1 X2 X3 X4 : M16) :
    ∃ AB AT BT R, MatMulMatM16 env A B X0 = .ok AB ∧ MattransM16 env A X1 = .ok AT ∧ MattransM16 env B X2 = .ok BT ∧
      MattransM16 env AB X3 = .ok R ∧ MatMulMatM16 env BT AT X4 = .ok R := by
  obtain ⟨P, hP, eP⟩ := MatMulMatM16_ok env A B X0
  obtain ⟨S, hS, eS⟩ := MattransM16_ok env A X1
  obtain ⟨T, hT, eT⟩ := MattransM16_ok env B X2
  obtain ⟨R, hR, eR⟩ := MattransM16_ok env P X3
  obtain ⟨Q, hQ, eQ⟩ := MatMulMatM16_ok env T S X4
  obtain rfl : Q = R := mat16_inj (by rw [eQ, eR, eP, eS, eT, Matrix.transpose_mul])
  exact ⟨P, S, T, _, hP, hS, hT, hR, hQ⟩

/-- C35: the inverse of a product is the product of the inverses in reverse order. -/
theorem C35_invsM16 (env : Env) (A B X0 X1 X2 X3 X4 : M16) (uA : IsUnit (mat16 A))
    (uB : IsUnit (mat16 B)) :
    ∃ AB AI BI R, MatMulMatM16 env A B X0 = .ok AB ∧ invsM16 A X1 = .ok AI ∧ invsM16 B X2 = .ok BI ∧
      invsM16 AB X3 = .ok R ∧ MatMulMatM16 env BI AI X4 = .ok R := by
  obtain ⟨P, hP, eP⟩ := MatMulMatM16_ok env A B X0
  have uP : IsUnit (mat16 P) := eP ▸ uA.mul uB
  obtain ⟨S, hS, eS, fS⟩ := C13_invsM16 A X1 uA
  obtain ⟨T, hT, eT, fT⟩ := C13_invsM16 B X2 uB
  obtain ⟨R, hR, eR, fR⟩ := C13_invsM16 P X3 uP
  obtain ⟨Q, hQ, eQ⟩ := MatMulMatM16_ok env T S X4
  obtain rfl : Q = R := mat16_inj (by refine mat_inv_unique (A := mat16 P) ?_ eR; rw [eQ, eP, Matrix.mul_assoc, ← Matrix.mul_assoc (mat16 B), eT, Matrix.one_mul, eS])
  exact ⟨P, S, T, _, hP, hS, hT, hR, hQ⟩

example : MatMulMatM16 exEnv exA16 exB16 exB16 = .ok #v[0xbf44, 0x37ef, 0x66f2, 0x6cc4, 0xad90, 0xd58c, 0xfaa1, 0x9f25, 0x53f9, 0xea4a, 0x9d50, 0xf342, 0x1e4e, 0xc3a1, 0xd85e, 0xc381] ∧
    MattransM16 exEnv #v[0xbf44, 0x37ef, 0x66f2, 0x6cc4, 0xad90, 0xd58c, 0xfaa1, 0x9f25, 0x53f9, 0xea4a, 0x9d50, 0xf342, 0x1e4e, 0xc3a1, 0xd85e, 0xc381] exB16 = .ok #v[0x8f77, 0x36d7, 0xfa50, 0xc7ba, 0x9b6a, 0xfd28, 0xe3dd, 0xcdb5, 0x7e85, 0xf0fa, 0x6384, 0x28a2, 0x44ca, 0xd50a, 0x605a, 0x4385] ∧
    (do MatMulMatM16 exEnv (← MattransM16 exEnv exB16 exA16) (← MattransM16 exEnv exA16 exA16) exB16) =
      .ok #v[0x8f77, 0x36d7, 0xfa50, 0xc7ba, 0x9b6a, 0xfd28, 0xe3dd, 0xcdb5, 0x7e85, 0xf0fa, 0x6384, 0x28a2, 0x44ca, 0xd50a, 0x605a, 0x4385] := by decide +kernel

example : ∃ A B : M16, IsUnit (mat16 A) ∧ IsUnit (mat16 B) := by
  obtain ⟨⟨⟨A, B⟩, w⟩, h, hAB, _⟩ := genMatpairM16_ok exEnv exB16 exB16 exWorld
  exact ⟨A, B, ⟨⟨_, _, hAB, mat_comm hAB⟩, rfl⟩, ⟨⟨_, _, mat_comm hAB, hAB⟩, rfl⟩⟩

/-- C35: products are associative, bit for bit. -/
theorem C35_mul_assocM32 (env : Env) (A B C X0 X1 X2 X3 : M32) :
    ∃ AB BC R, MatMulMatM32 env A B X0 = .ok AB ∧ MatMulMatM32 env B C X1 = .ok BC ∧
      MatMulMatM32 env AB C X2 = .ok R ∧ MatMulMatM32 env A BC X3 = .ok R := by
  obtain ⟨P, hP, eP⟩ := MatMulMatM32_ok env A B X0
  obtain ⟨Q, hQ, eQ⟩ := MatMulMatM32_ok env B C X1
  obtain ⟨R, hR, eR⟩ := MatMulMatM32_ok env P C X2
  obtain ⟨S, hS, eS⟩ := MatMulMatM32_ok env A Q X3
  obtain rfl : S = R := mat32_inj (by rw [eS, eR, eP, eQ, Matrix.mul_assoc])
  exact ⟨P, Q, _, hP, hQ, hR, hS⟩

/-- C35: left distributivity. -/
theorem C35_mul_addM32 (env : Env) (A B C X0 X1 X2 X3 X4 : M32) :
    ∃ S AB AC R, MatAddMatM32 B C X0 = .ok S ∧ MatMulMatM32 env A B X1 = .ok AB ∧ MatMulMatM32 env A C X2 = .ok AC ∧
      MatMulMatM32 env A S X3 = .ok R ∧ MatAddMatM32 AB AC X4 = .ok R := by
  obtain ⟨S, hS, eS⟩ := C05_MatAddMatM32 B C X0
  obtain ⟨P, hP, eP⟩ := MatMulMatM32_ok env A B X1
  obtain ⟨Q, hQ, eQ⟩ := MatMulMatM32_ok env A C X2
  obtain ⟨R, hR, eR⟩ := MatMulMatM32_ok env A S X3
  obtain ⟨T, hT, eT⟩ := C05_MatAddMatM32 P Q X4
  obtain rfl : T = R := mat32_inj (by rw [eT, eR, eP, eQ, eS, Matrix.mul_add])
  exact ⟨S, P, Q, _, hS, hP, hQ, hR, hT⟩

/-- C35: right distributivity. -/
theorem C35_add_mulM32 (env : Env) (A B C X0 X1 X2 X3 X4 : M32) :
    ∃ S AC BC R, MatAddMatM32 A B X0 = .ok S ∧ MatMulMatM32 env A C X1 = .ok AC ∧ MatMulMatM32 env B C X2 = .ok BC ∧
      MatMulMatM32 env S C X3 = .ok R ∧ MatAddMatM32 AC BC X4 = .ok R := by
  obtain ⟨S, hS, eS⟩ := C05_MatAddMatM32 A B X0
  obtain ⟨P, hP, eP⟩ := MatMulMatM32_ok env A C X1
  obtain ⟨Q, hQ, eQ⟩ := MatMulMatM32_ok env B C X2
  obtain ⟨R, hR, eR⟩ := MatMulMatM32_ok env S C X3
  obtain ⟨T, hT, eT⟩ := C05_MatAddMatM32 P Q X4
  obtain rfl : T = R := mat32_inj (by rw [eT, eR, eP, eQ, eS, Matrix.add_mul])
  exact ⟨S, P, Q, _, hS, hP, hQ, hR, hT⟩

/-- C35: the matrix made by `identityM32` is neutral on both sides. -/
theorem C35_oneM32 (env : Env) (A X0 X1 X2 : M32) :
    ∃ I, identityM32 X0 = .ok I ∧ MatMulMatM32 env I A X1 = .ok A ∧ MatMulMatM32 env A I X2 = .ok A := by
  obtain ⟨I, hI, eI⟩ := C06_identityM32 X0
  obtain ⟨P, hP, eP⟩ := MatMulMatM32_ok env I A X1
  obtain ⟨Q, hQ, eQ⟩ := MatMulMatM32_ok env A I X2
  obtain rfl : P = A := mat32_inj (by rw [eP, eI, Matrix.one_mul])
  obtain rfl : Q = P := mat32_inj (by rw [eQ, eI, Matrix.mul_one])
  exact ⟨I, hI, hP, hQ⟩

/-- C35: the transpose of a product is the product of the transposes in reverse order. -/
theorem C35_transposeM32 (env : Env) (A B X0 X1 X2 X3 X4 : M32) :
    ∃ AB AT BT R, MatMulMatM32 env A B X0 = .ok AB ∧ MattransM32 env A X1 = .ok AT ∧ MattransM32 env B X2 = .ok BT ∧
      MattransM32 env AB X3 = .ok R ∧ MatMulMatM32 env BT AT X4 = .ok R := by
  obtain ⟨P, hP, eP⟩ := MatMulMatM32_ok env A B X0
  obtain ⟨S, hS, eS⟩ := MattransM32_ok env A X1
  obtain ⟨T, hT, eT⟩ := MattransM32_ok env B X2
  obtain ⟨R, hR, eR⟩ := MattransM32_ok env P X3
  obtain ⟨Q, hQ, eQ⟩ := MatMulMatM32_ok env T S X4
  obtain rfl : Q = R := mat32_inj (by rw [eQ, eR, eP, eS, eT, Matrix.transpose_mul])
  exact ⟨P, S, T, _, hP, hS, hT, hR, hQ⟩

/-- C35: the inverse of a product is the product of the inverses in reverse order. -/
theorem C35_invsM32 (env : Env) (A B X0 X1 X2 X3 X4 : M32) (uA : IsUnit (mat32 A))
    (uB : IsUnit (mat32 B)) :
    ∃ AB AI BI R, MatMulMatM32 env A B X0 = .ok AB ∧ invsM32 A X1 = .ok AI ∧ invsM32 B X2 = .ok BI ∧
      invsM32 AB X3 = .ok R ∧ MatMulMatM32 env BI AI X4 = .ok R := by
  obtain ⟨P, hP, eP⟩ := MatMulMatM32_ok env A B X0
  have uP : IsUnit (mat32 P) := eP ▸ uA.mul uB
  obtain ⟨S, hS, eS, fS⟩ := C13_invsM32 A X1 uA
  obtain ⟨T, hT, eT, fT⟩ := C13_invsM32 B X2 uB
  obtain ⟨R, hR, eR, fR⟩ := C13_invsM32 P X3 uP
  obtain ⟨Q, hQ, eQ⟩ := MatMulMatM32_ok env T S X4
  obtain rfl : Q = R := mat32_inj (by refine mat_inv_unique (A := mat32 P) ?_ eR; rw [eQ, eP, Matrix.mul_assoc, ← Matrix.mul_assoc (mat32 B), eT, Matrix.one_mul, eS])
  exact ⟨P, S, T, _, hP, hS, hT, hR, hQ⟩

example : MatMulMatM32 exEnv exA32 exB32 exB32 = .ok #v[0xead9bf44, 0x7d5b37ef, 0x4fab66f2, 0xa9f56cc4, 0x753ead90, 0xcea7d58c, 0x79d4faa1, 0xf3a9f25, 0x61e753f9, 0xec3cea4a, 0x1d879d50, 0xe3b0f342, 0xbc761e4e, 0x378ec3a1, 0x6f1d85e, 0xe0de3aec, 0x3c1bc742, 0xc783788b, 0x58f06f32, 0xeb1e0d18, 0xdd63c197, 0x1bac7868, 0xa3758cf1, 0x346eb1b3, 0x868dd60f, 0x70d1ba10, 0x8e1a3727, 0x31c34720, 0x26386886, 0x24c70dd4, 0xa498e1e4, 0x8411389d] ∧
    MattransM32 exEnv #v[0xead9bf44, 0x7d5b37ef, 0x4fab66f2, 0xa9f56cc4, 0x753ead90, 0xcea7d58c, 0x79d4faa1, 0xf3a9f25, 0x61e753f9, 0xec3cea4a, 0x1d879d50, 0xe3b0f342, 0xbc761e4e, 0x378ec3a1, 0x6f1d85e, 0xe0de3aec, 0x3c1bc742, 0xc783788b, 0x58f06f32, 0xeb1e0d18, 0xdd63c197, 0x1bac7868, 0xa3758cf1, 0x346eb1b3, 0x868dd60f, 0x70d1ba10, 0x8e1a3727, 0x31c34720, 0x26386886, 0x24c70dd4, 0xa498e1e4, 0x8411389d] exB32 = .ok #v[0x94595aa3, 0xeed17840, 0xdadd935e, 0x4a2cad50, 0xf768bc20, 0x6d6ec9af, 0xa51656a8, 0x7bb45e10, 0xb6b764d6, 0xd28b2b54, 0x3dda2f08, 0xdb5bb26b, 0xe94595aa, 0x1eed1784, 0x6dadd934, 0xf4a2cad5, 0x8f768bc2, 0x36d6ec9a, 0xfa51656b, 0xc7bb45e1, 0x9b6b764d, 0xfd28b2b4, 0xe3dda0f0, 0xcdb4b936, 0x7e854b0f, 0xf0fb8606, 0x63852732, 0x28a23b45, 0x44cb5481, 0xd50b08af, 0x605ae9a8, 0x43844ba1] ∧
    (do MatMulMatM32 exEnv (← MattransM32 exEnv exB32 exA32) (← MattransM32 exEnv exA32 exA32) exB32) =
      .ok #v[0x94595aa3, 0xeed17840, 0xdadd935e, 0x4a2cad50, 0xf768bc20, 0x6d6ec9af, 0xa51656a8, 0x7bb45e10, 0xb6b764d6, 0xd28b2b54, 0x3dda2f08, 0xdb5bb26b, 0xe94595aa, 0x1eed1784, 0x6dadd934, 0xf4a2cad5, 0x8f768bc2, 0x36d6ec9a, 0xfa51656b, 0xc7bb45e1, 0x9b6b764d, 0xfd28b2b4, 0xe3dda0f0, 0xcdb4b936, 0x7e854b0f, 0xf0fb8606, 0x63852732, 0x28a23b45, 0x44cb5481, 0xd50b08af, 0x605ae9a8, 0x43844ba1] := by decide +kernel

example : ∃ A B : M32, IsUnit (mat32 A) ∧ IsUnit (mat32 B) := by
  obtain ⟨⟨⟨A, B⟩, w⟩, h, hAB, _⟩ := genMatpairM32_ok exEnv exB32 exB32 exWorld
  exact ⟨A, B, ⟨⟨_, _, hAB, mat_comm hAB⟩, rfl⟩, ⟨⟨_, _, mat_comm hAB, hAB⟩, rfl⟩⟩

/-- C35: products are associative, bit for bit. -/
theorem C35_mul_assocM64 (env : Env) (A B C X0 X1 X2 X3 : M64) :
    ∃ AB BC R, MatMulMatM64 env A B X0 = .ok AB ∧ MatMulMatM64 env B C X1 = .ok BC ∧
      MatMulMatM64 env AB C X2 = .ok R ∧ MatMulMatM64 env A BC X3 = .ok R := by
  obtain ⟨P, hP, eP⟩ := MatMulMatM64_ok env A B X0
  obtain ⟨Q, hQ, eQ⟩ := MatMulMatM64_ok env B C X1
  obtain ⟨R, hR, eR⟩ := MatMulMatM64_ok env P C X2
  obtain ⟨S, hS, eS⟩ := MatMulMatM64_ok env A Q X3
  obtain rfl : S = R := mat64_inj (by rw [eS, eR, eP, eQ, Matrix.mul_assoc])
  exact ⟨P, Q, _, hP, hQ, hR, hS⟩

/-- C35: left distributivity. -/
theorem C35_mul_addM64 (env : Env) (A B C X0 X1 X2 X3 X4 : M64) :
    ∃ S AB AC R, MatAddMatM64 B C X0 = .ok S ∧ MatMulMatM64 env A B X1 = .ok AB ∧ MatMulMatM64 env A C X2 = .ok AC ∧
      MatMulMatM64 env A S X3 = .ok R ∧ MatAddMatM64 AB AC X4 = .ok R := by
  obtain ⟨S, hS, eS⟩ := C05_MatAddMatM64 B C X0
  obtain ⟨P, hP, eP⟩ := MatMulMatM64_ok env A B X1
  obtain ⟨Q, hQ, eQ⟩ := MatMulMatM64_ok env A C X2
  obtain ⟨R, hR, eR⟩ := MatMulMatM64_ok env A S X3
  obtain ⟨T, hT, eT⟩ := C05_MatAddMatM64 P Q X4
  obtain rfl : T = R := mat64_inj (by rw [eT, eR, eP, eQ, eS, Matrix.mul_add])
  exact ⟨S, P, Q, _, hS, hP, hQ, hR, hT⟩

/-- C35: right distributivity. -/
theorem C35_add_mulM64 (env : Env) (A B C X0 X1 X2 X3 X4 : M64) :
    ∃ S AC BC R, MatAddMatM64 A B X0 = .ok S ∧ MatMulMatM64 env A C X1 = .ok AC ∧ MatMulMatM64 env B C X2 = .ok BC ∧
      MatMulMatM64 env S C X3 = .ok R ∧ MatAddMatM64 AC BC X4 = .ok R := by
  obtain ⟨S, hS, eS⟩ := C05_MatAddMatM64 A B X0
  obtain ⟨P, hP, eP⟩ := MatMulMatM64_ok env A C X1
  obtain ⟨Q, hQ, eQ⟩ := MatMulMatM64_ok env B C X2
  obtain ⟨R, hR, eR⟩ := MatMulMatM64_ok env S C X3
  obtain ⟨T, hT, eT⟩ := C05_MatAddMatM64 P Q X4
  obtain rfl : T = R := mat64_inj (by rw [eT, eR, eP, eQ, eS, Matrix.add_mul])
  exact ⟨S, P, Q, _, hS, hP, hQ, hR, hT⟩

/-- C35: the matrix made by `identityM64` is neutral on both sides. -/
theorem C35_oneM64 (env : Env) (A X0 X1 X2 : M64) :
    ∃ I, identityM64 X0 = .ok I ∧ MatMulMatM64 env I A X1 = .ok A ∧ MatMulMatM64 env A I X2 = .ok A := by
  obtain ⟨I, hI, eI⟩ := C06_identityM64 X0
  obtain ⟨P, hP, eP⟩ := MatMulMatM64_ok env I A X1
  obtain ⟨Q, hQ, eQ⟩ := MatMulMatM64_ok env A I X2
  obtain rfl : P = A := mat64_inj (by rw [eP, eI, Matrix.one_mul])
  obtain rfl : Q = P := mat64_inj (by rw [eQ, eI, Matrix.mul_one])
  exact ⟨I, hI, hP, hQ⟩

/-- C35: the transpose of a product is the product of the transposes in reverse order. -/
theorem C35_transposeM64 (env : Env) (A B X0 X1 X2 X3 X4 : M64) :
    ∃ AB AT BT R, MatMulMatM64 env A B X0 = .ok AB ∧ MattransM64 env A X1 = .ok AT ∧ MattransM64 env B X2 = .ok BT ∧
      MattransM64 env AB X3 = .ok R ∧ MatMulMatM64 env BT AT X4 = .ok R := by
  obtain ⟨P, hP, eP⟩ := MatMulMatM64_ok env A B X0
  obtain ⟨S, hS, eS⟩ := MattransM64_ok env A X1
  obtain ⟨T, hT, eT⟩ := MattransM64_ok env B X2
  obtain ⟨R, hR, eR⟩ := MattransM64_ok env P X3
  obtain ⟨Q, hQ, eQ⟩ := MatMulMatM64_ok env T S X4
  obtain rfl : Q = R := mat64_inj (by rw [eQ, eR, eP, eS, eT, Matrix.transpose_mul])
  exact ⟨P, S, T, _, hP, hS, hT, hR, hQ⟩

/-- C35: the inverse of a product is the product of the inverses in reverse order. -/
theorem C35_invsM64 (env : Env) (A B X0 X1 X2 X3 X4 : M64) (uA : IsUnit (mat64 A))
    (uB : IsUnit (mat64 B)) :
    ∃ AB AI BI R, MatMulMatM64 env A B X0 = .ok AB ∧ invsM64 A X1 = .ok AI ∧ invsM64 B X2 = .ok BI ∧
      invsM64 AB X3 = .ok R ∧ MatMulMatM64 env BI AI X4 = .ok R := by
  obtain ⟨P, hP, eP⟩ := MatMulMatM64_ok env A B X0
  have uP : IsUnit (mat64 P) := eP ▸ uA.mul uB
  obtain ⟨S, hS, eS, fS⟩ := C13_invsM64 A X1 uA
  obtain ⟨T, hT, eT, fT⟩ := C13_invsM64 B X2 uB
  obtain ⟨R, hR, eR, fR⟩ := C13_invsM64 P X3 uP
  obtain ⟨Q, hQ, eQ⟩ := MatMulMatM64_ok env T S X4
  obtain rfl : Q = R := mat64_inj (by refine mat_inv_unique (A := mat64 P) ?_ eR; rw [eQ, eP, Matrix.mul_assoc, ← Matrix.mul_assoc (mat64 B), eT, Matrix.one_mul, eS])
  exact ⟨P, S, T, _, hP, hS, hT, hR, hQ⟩

example : ∃ A B : M64, IsUnit (mat64 A) ∧ IsUnit (mat64 B) := by
  obtain ⟨⟨⟨A, B⟩, w⟩, h, hAB, _⟩ := genMatpairM64_ok exEnv exB64 exB64 exWorld
  exact ⟨A, B, ⟨⟨_, _, hAB, mat_comm hAB⟩, rfl⟩, ⟨⟨_, _, mat_comm hAB, hAB⟩, rfl⟩⟩

/-- C35: products are associative, bit for bit. -/
theorem C35_mul_assocM128 (env : Env) (A B C X0 X1 X2 X3 : M128) :
    ∃ AB BC R, MatMulMatM128 env A B X0 = .ok AB ∧ MatMulMatM128 env B C X1 = .ok BC ∧
      MatMulMatM128 env AB C X2 = .ok R ∧ MatMulMatM128 env A BC X3 = .ok R := by
  obtain ⟨P, hP, eP⟩ := MatMulMatM128_ok env A B X0
  obtain ⟨Q, hQ, eQ⟩ := MatMulMatM128_ok env B C X1
  obtain ⟨R, hR, eR⟩ := MatMulMatM128_ok env P C X2
  obtain ⟨S, hS, eS⟩ := MatMulMatM128_ok env A Q X3
  obtain rfl : S = R := mat128_inj (by rw [eS, eR, eP, eQ, Matrix.mul_assoc])
  exact ⟨P, Q, _, hP, hQ, hR, hS⟩

/-- C35: left distributivity. -/
theorem C35_mul_addM128 (env : Env) (A B C X0 X1 X2 X3 X4 : M128) :
    ∃ S AB AC R, MatAddMatM128 B C X0 = .ok S ∧ MatMulMatM128 env A B X1 = .ok AB ∧ MatMulMatM128 env A C X2 = .ok AC ∧
      MatMulMatM128 env A S X3 = .ok R ∧ MatAddMatM128 AB AC X4 = .ok R := by
  obtain ⟨S, hS, eS⟩ := C05_MatAddMatM128 B C X0
  obtain ⟨P, hP, eP⟩ := MatMulMatM128_ok env A B X1
  obtain ⟨Q, hQ, eQ⟩ := MatMulMatM128_ok env A C X2
  obtain ⟨R, hR, eR⟩ := MatMulMatM128_ok env A S X3
  obtain ⟨T, hT, eT⟩ := C05_MatAddMatM128 P Q X4
  obtain rfl : T = R := mat128_inj (by rw [eT, eR, eP, eQ, eS, Matrix.mul_add])
  exact ⟨S, P, Q, _, hS, hP, hQ, hR, hT⟩

/-- C35: right distributivity. -/
theorem C35_add_mulM128 (env : Env) (A B C X0 X1 X2 X3 X4 : M128) :
    ∃ S AC BC R, MatAddMatM128 A B X0 = .ok S ∧ MatMulMatM128 env A C X1 = .ok AC ∧ MatMulMatM128 env B C X2 = .ok BC ∧
      MatMulMatM128 env S C X3 = .ok R ∧ MatAddMatM128 AC BC X4 = .ok R := by
  obtain ⟨S, hS, eS⟩ := C05_MatAddMatM128 A B X0
  obtain ⟨P, hP, eP⟩ := MatMulMatM128_ok env A C X1
  obtain ⟨Q, hQ, eQ⟩ := MatMulMatM128_ok env B C X2
  obtain ⟨R, hR, eR⟩ := MatMulMatM128_ok env S C X3
  obtain ⟨T, hT, eT⟩ := C05_MatAddMatM128 P Q X4
  obtain rfl : T = R := mat128_inj (by rw [eT, eR, eP, eQ, eS, Matrix.add_mul])
  exact ⟨S, P, Q, _, hS, hP, hQ, hR, hT⟩

/-- C35: the matrix made by `identityM128` is neutral on both sides. -/
theorem C35_oneM128 (env : Env) (A X0 X1 X2 : M128) :
    ∃ I, identityM128 X0 = .ok I ∧ MatMulMatM128 env I A X1 = .ok A ∧ MatMulMatM128 env A I X2 = .ok A := by
  obtain ⟨I, hI, eI⟩ := C06_identityM128 X0
  obtain ⟨P, hP, eP⟩ := MatMulMatM128_ok env I A X1
  obtain ⟨Q, hQ, eQ⟩ := MatMulMatM128_ok env A I X2
  obtain rfl : P = A := mat128_inj (by rw [eP, eI, Matrix.one_mul])
  obtain rfl : Q = P := mat128_inj (by rw [eQ, eI, Matrix.mul_one])
  exact ⟨I, hI, hP, hQ⟩

/-- C35: the transpose of a product is the product of the transposes in reverse order. -/
theorem C35_transposeM128 (env : Env) (A B X0 X1 X2 X3 X4 : M128) :
    ∃ AB AT BT R, MatMulMatM128 env A B X0 = .ok AB ∧ MattransM128 env A X1 = .ok AT ∧ MattransM128 env B X2 = .ok BT ∧
      MattransM128 env AB X3 = .ok R ∧ MatMulMatM128 env BT AT X4 = .ok R := by
  obtain ⟨P, hP, eP⟩ := MatMulMatM128_ok env A B X0
  obtain ⟨S, hS, eS⟩ := MattransM128_ok env A X1
  obtain ⟨T, hT, eT⟩ := MattransM128_ok env B X2
  obtain ⟨R, hR, eR⟩ := MattransM128_ok env P X3
  obtain ⟨Q, hQ, eQ⟩ := MatMulMatM128_ok env T S X4
  obtain rfl : Q = R := mat128_inj (by rw [eQ, eR, eP, eS, eT, Matrix.transpose_mul])
  exact ⟨P, S, T, _, hP, hS, hT, hR, hQ⟩

/-- C35: the inverse of a product is the product of the inverses in reverse order. -/
theorem C35_invsM128 (env : Env) (A B X0 X1 X2 X3 X4 : M128) (uA : IsUnit (mat128 A))
    (uB : IsUnit (mat128 B)) :
    ∃ AB AI BI R, MatMulMatM128 env A B X0 = .ok AB ∧ invsM128 A X1 = .ok AI ∧ invsM128 B X2 = .ok BI ∧
      invsM128 AB X3 = .ok R ∧ MatMulMatM128 env BI AI X4 = .ok R := by
  obtain ⟨P, hP, eP⟩ := MatMulMatM128_ok env A B X0
  have uP : IsUnit (mat128 P) := eP ▸ uA.mul uB
  obtain ⟨S, hS, eS, fS⟩ := C13_invsM128 A X1 uA
  obtain ⟨T, hT, eT, fT⟩ := C13_invsM128 B X2 uB
  obtain ⟨R, hR, eR, fR⟩ := C13_invsM128 P X3 uP
  obtain ⟨Q, hQ, eQ⟩ := MatMulMatM128_ok env T S X4
  obtain rfl : Q = R := mat128_inj (by refine mat_inv_unique (A := mat128 P) ?_ eR; rw [eQ, eP, Matrix.mul_assoc, ← Matrix.mul_assoc (mat128 B), eT, Matrix.one_mul, eS])
  exact ⟨P, S, T, _, hP, hS, hT, hR, hQ⟩

example : ∃ A B : M128, IsUnit (mat128 A) ∧ IsUnit (mat128 B) := by
  obtain ⟨⟨⟨A, B⟩, w⟩, h, hAB, _⟩ := genMatpairM128_ok exEnv exB128 exB128 exWorld
  exact ⟨A, B, ⟨⟨_, _, hAB, mat_comm hAB⟩, rfl⟩, ⟨⟨_, _, mat_comm hAB, hAB⟩, rfl⟩⟩

/-- C35: products are associative, bit for bit. -/
theorem C35_mul_assocM256 (env : Env) (A B C X0 X1 X2 X3 : M256) :
    ∃ AB BC R, MatMulMatM256 env A B X0 = .ok AB ∧ MatMulMatM256 env B C X1 = .ok BC ∧
      MatMulMatM256 env AB C X2 = .ok R ∧ MatMulMatM256 env A BC X3 = .ok R := by
  obtain ⟨P, hP, eP⟩ := MatMulMatM256_ok env A B X0
  obtain ⟨Q, hQ, eQ⟩ := MatMulMatM256_ok env B C X1
  obtain ⟨R, hR, eR⟩ := MatMulMatM256_ok env P C X2
  obtain ⟨S, hS, eS⟩ := MatMulMatM256_ok env A Q X3
  obtain rfl : S = R := mat256_inj (by rw [eS, eR, eP, eQ, Matrix.mul_assoc])
  exact ⟨P, Q, _, hP, hQ, hR, hS⟩

/-- C35: left distributivity. -/
theorem C35_mul_addM256 (env : Env) (A B C X0 X1 X2 X3 X4 : M256) :
    ∃ S AB AC R, MatAddMatM256 B C X0 = .ok S ∧ MatMulMatM256 env A B X1 = .ok AB ∧ MatMulMatM256 env A C X2 = .ok AC ∧
      MatMulMatM256 env A S X3 = .ok R ∧ MatAddMatM256 AB AC X4 = .ok R := by
  obtain ⟨S, hS, eS⟩ := C05_MatAddMatM256 B C X0
  obtain ⟨P, hP, eP⟩ := MatMulMatM256_ok env A B X1
  obtain ⟨Q, hQ, eQ⟩ := MatMulMatM256_ok env A C X2
  obtain ⟨R, hR, eR⟩ := MatMulMatM256_ok env A S X3
  obtain ⟨T, hT, eT⟩ := C05_MatAddMatM256 P Q X4
  obtain rfl : T = R := mat256_inj (by rw [eT, eR, eP, eQ, eS, Matrix.mul_add])
  exact ⟨S, P, Q, _, hS, hP, hQ, hR, hT⟩

/-- C35: right distributivity. -/
theorem C35_add_mulM256 (env : Env) (A B C X0 X1 X2 X3 X4 : M256) :
    ∃ S AC BC R, MatAddMatM256 A B X0 = .ok S ∧ MatMulMatM256 env A C X1 = .ok AC ∧ MatMulMatM256 env B C X2 = .ok BC ∧
      MatMulMatM256 env S C X3 = .ok R ∧ MatAddMatM256 AC BC X4 = .ok R := by
  obtain ⟨S, hS, eS⟩ := C05_MatAddMatM256 A B X0
  obtain ⟨P, hP, eP⟩ := MatMulMatM256_ok env A C X1
  obtain ⟨Q, hQ, eQ⟩ := MatMulMatM256_ok env B C X2
  obtain ⟨R, hR, eR⟩ := MatMulMatM256_ok env S C X3
  obtain ⟨T, hT, eT⟩ := C05_MatAddMatM256 P Q X4
  obtain rfl : T = R := mat256_inj (by rw [eT, eR, eP, eQ, eS, Matrix.add_mul])
  exact ⟨S, P, Q, _, hS, hP, hQ, hR, hT⟩

/-- C35: the matrix made by `identityM256` is neutral on both sides. -/
theorem C35_oneM256 (env : Env) (A X0 X1 X2 : M256) :
    ∃ I, identityM256 X0 = .ok I ∧ MatMulMatM256 env I A X1 = .ok A ∧ MatMulMatM256 env A I X2 = .ok A := by
  obtain ⟨I, hI, eI⟩ := C06_identityM256 X0
  obtain ⟨P, hP, eP⟩ := MatMulMatM256_ok env I A X1
  obtain ⟨Q, hQ, eQ⟩ := MatMulMatM256_ok env A I X2
  obtain rfl : P = A := mat256_inj (by rw [eP, eI, Matrix.one_mul])
  obtain rfl : Q = P := mat256_inj (by rw [eQ, eI, Matrix.mul_one])
  exact ⟨I, hI, hP, hQ⟩

/-- C35: the transpose of a product is the product of the transposes in reverse order. -/
theorem C35_transposeM256 (env : Env) (A B X0 X1 X2 X3 X4 : M256) :
    ∃ AB AT BT R, MatMulMatM256 env A B X0 = .ok AB ∧ MattransM256 env A X1 = .ok AT ∧ MattransM256 env B X2 = .ok BT ∧
      MattransM256 env AB X3 = .ok R ∧ MatMulMatM256 env BT AT X4 = .ok R := by
  obtain ⟨P, hP, eP⟩ := MatMulMatM256_ok env A B X0
  obtain ⟨S, hS, eS⟩ := MattransM256_ok env A X1
  obtain ⟨T, hT, eT⟩ := MattransM256_ok env B X2
  obtain ⟨R, hR, eR⟩ := MattransM256_ok env P X3
  obtain ⟨Q, hQ, eQ⟩ := MatMulMatM256_ok env T S X4
  obtain rfl : Q = R := mat256_inj (by rw [eQ, eR, eP, eS, eT, Matrix.transpose_mul])
  exact ⟨P, S, T, _, hP, hS, hT, hR, hQ⟩

/-- C35: the inverse of a product is the product of the inverses in reverse order. -/
theorem C35_invsM256 (env : Env) (A B X0 X1 X2 X3 X4 : M256) (uA : IsUnit (mat256 A))
    (uB : IsUnit (mat256 B)) :
    ∃ AB AI BI R, MatMulMatM256 env A B X0 = .ok AB ∧ invsM256 A X1 = .ok AI ∧ invsM256 B X2 = .ok BI ∧
      invsM256 AB X3 = .ok R ∧ MatMulMatM256 env BI AI X4 = .ok R := by
  obtain ⟨P, hP, eP⟩ := MatMulMatM256_ok env A B X0
  have uP : IsUnit (mat256 P) := eP ▸ uA.mul uB
  obtain ⟨S, hS, eS, fS⟩ := C13_invsM256 A X1 uA
  obtain ⟨T, hT, eT, fT⟩ := C13_invsM256 B X2 uB
  obtain ⟨R, hR, eR, fR⟩ := C13_invsM256 P X3 uP
  obtain ⟨Q, hQ, eQ⟩ := MatMulMatM256_ok env T S X4
  obtain rfl : Q = R := mat256_inj (by refine mat_inv_unique (A := mat256 P) ?_ eR; rw [eQ, eP, Matrix.mul_assoc, ← Matrix.mul_assoc (mat256 B), eT, Matrix.one_mul, eS])
  exact ⟨P, S, T, _, hP, hS, hT, hR, hQ⟩

example : ∃ A B : M256, IsUnit (mat256 A) ∧ IsUnit (mat256 B) := by
  obtain ⟨⟨⟨A, B⟩, w⟩, h, hAB, _⟩ := genMatpairM256_ok exEnv exB256 exB256 exWorld
  exact ⟨A, B, ⟨⟨_, _, hAB, mat_comm hAB⟩, rfl⟩, ⟨⟨_, _, mat_comm hAB, hAB⟩, rfl⟩⟩

end WB
