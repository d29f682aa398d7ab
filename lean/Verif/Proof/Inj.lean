import Verif.Proof.MulAll
import Verif.Proof.ElimAll
import Mathlib.LinearAlgebra.Matrix.NonsingularInverse

/-!
# Objects are determined by the GF(2) values they denote (helper lemmas)
-/
namespace WB
open Matrix

theorem wordS_inj {w : Nat} {x y : BitVec w}
    (h : ∀ j : Fin w, bitF (bitS w x j) = bitF (bitS w y j)) : x = y := by
  apply BitVec.eq_of_getLsbD_eq
  intro i hi
  have := bitF_inj.1 (h ⟨w - 1 - i, by omega⟩)
  unfold bitS at this
  simpa [show w - 1 - (w - 1 - i) = i by omega] using this

theorem word4_inj {x y : BitVec 8} (hx : Clean4 x) (hy : Clean4 y)
    (h : ∀ j : Fin 4, bitF (bitS 4 x j) = bitF (bitS 4 y j)) : x = y := by
  apply BitVec.eq_of_getLsbD_eq
  intro i hi
  by_cases h4 : i < 4
  · have := bitF_inj.1 (h ⟨4 - 1 - i, by omega⟩)
    unfold bitS at this
    simpa [show 4 - 1 - (4 - 1 - i) = i by omega, show 3 - (3 - i) = i by omega] using this
  · rw [hx.bits4 i (by omega), hy.bits4 i (by omega)]

theorem wordW_inj {l n : Nat} (hn : n = 64 * l) {x y : Vector (BitVec 64) l}
    (h : ∀ j : Fin n, bitF (bitW x j) = bitF (bitW y j)) : x = y := by
  refine Vector.ext fun q hq => ?_
  apply BitVec.eq_of_getLsbD_eq
  intro i hi
  have := bitF_inj.1 (h ⟨64 * q + (63 - i), by omega⟩)
  rw [bitW_eq _ _ (by simp only; omega), bitW_eq _ _ (by simp only; omega)] at this
  have e1 : (64 * q + (63 - i)) / 64 = q := by omega
  have e2 : 63 - (64 * q + (63 - i)) % 64 = i := by omega
  simp only [e1, e2] at this
  exact this

theorem vecS_inj {w : Nat} {x y : BitVec w} (h : vecOf w (bitS w) x = vecOf w (bitS w) y) :
    x = y := wordS_inj fun j => congrFun h j

theorem vec4_inj {x y : BitVec 8} (hx : Clean4 x) (hy : Clean4 y) (h : vec4 x = vec4 y) : x = y :=
  word4_inj hx hy fun j => congrFun h j

theorem vecW_inj {l n : Nat} (hn : n = 64 * l) {x y : Vector (BitVec 64) l}
    (h : vecOf n bitW x = vecOf n bitW y) : x = y := wordW_inj hn fun j => congrFun h j

theorem matS_inj {w : Nat} {A B : Vector (BitVec w) w}
    (h : matOf w (bitS w) A = matOf w (bitS w) B) : A = B :=
  Vector.ext fun r hr => wordS_inj fun j => congrFun (congrFun h ⟨r, hr⟩) j

theorem mat4_inj {A B : M4} (hA : CleanM4 A) (hB : CleanM4 B) (h : mat4 A = mat4 B) : A = B :=
  Vector.ext fun r hr => word4_inj (hA ⟨r, hr⟩) (hB ⟨r, hr⟩) fun j => congrFun (congrFun h ⟨r, hr⟩) j

theorem matW_inj {l n : Nat} (hn : n = 64 * l) {A B : Vector (Vector (BitVec 64) l) n}
    (h : matOf n bitW A = matOf n bitW B) : A = B :=
  Vector.ext fun r hr => wordW_inj hn fun j => congrFun (congrFun h ⟨r, hr⟩) j

theorem mat8_inj {A B : M8} (h : mat8 A = mat8 B) : A = B := matS_inj h
theorem vec8_inj {x y : V8} (h : vec8 x = vec8 y) : x = y := vecS_inj h
theorem mat16_inj {A B : M16} (h : mat16 A = mat16 B) : A = B := matS_inj h
theorem vec16_inj {x y : V16} (h : vec16 x = vec16 y) : x = y := vecS_inj h
theorem mat32_inj {A B : M32} (h : mat32 A = mat32 B) : A = B := matS_inj h
theorem vec32_inj {x y : V32} (h : vec32 x = vec32 y) : x = y := vecS_inj h
theorem mat64_inj {A B : M64} (h : mat64 A = mat64 B) : A = B := matS_inj h
theorem vec64_inj {x y : V64} (h : vec64 x = vec64 y) : x = y := vecS_inj h
theorem mat128_inj {A B : M128} (h : mat128 A = mat128 B) : A = B := matW_inj (by norm_num) h
theorem vec128_inj {x y : V128} (h : vec128 x = vec128 y) : x = y := vecW_inj (by norm_num) h
theorem mat256_inj {A B : M256} (h : mat256 A = mat256 B) : A = B := matW_inj (by norm_num) h
theorem vec256_inj {x y : V256} (h : vec256 x = vec256 y) : x = y := vecW_inj (by norm_num) h

theorem mat_inv_unique {n : Nat} {A B B' : Mat n} (h : A * B = 1) (h' : A * B' = 1) : B = B' := by
  have h2 := mat_comm h
  calc B = B * (A * B') := by rw [h', mul_one]
    _ = (B * A) * B' := (mul_assoc _ _ _).symm
    _ = B' := by rw [h2, one_mul]

end WB
