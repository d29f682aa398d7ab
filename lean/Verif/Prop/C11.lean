import Verif.Prop.C09
import Verif.Prop.Examples

/-!
# C11 — setbit with a value other than 0 and 1
-/
namespace WB
open Matrix

set_option maxRecDepth 20000

/-- C11: with any `bit` other than 0 and 1 `setbitM4` inverts bit (i,j) and leaves every other bit alone. -/
theorem C11_setbitM4 (A : M4) (i j : Fin 4) (bit : Int) (hb : bit ≠ 0 ∧ bit ≠ 1) :
    ∃ B, setbitM4 A (i.val : Int) (j.val : Int) bit = .ok B ∧
      (∀ r c, mat4 B r c = if r = i ∧ c = j then mat4 A r c + 1 else mat4 A r c) ∧ ∀ r : Fin 4, B[r] >>> 4 = A[r] >>> 4 := by
  unfold setbitM4
  obtain ⟨B, hB, hm⟩ := C09_flipbitM4 A i j
  refine ⟨B, ?_, hm⟩
  rw [C09_readbitM4, C_pure_bind, hB, if_neg]
  simp only [beq_iff_eq]
  split
  · exact fun h => hb.2 h.symm
  · exact fun h => hb.1 h.symm

example : setbitM4 exB4 3 2 2 = .ok (exB4.set 3 0xf) ∧
    setbitM4 exB4 3 2 (-1) = .ok (exB4.set 3 0xf) := by decide +kernel

/-- C11: with any `bit` other than 0 and 1 `setbitM8` inverts bit (i,j) and leaves every other bit alone. -/
theorem C11_setbitM8 (A : M8) (i j : Fin 8) (bit : Int) (hb : bit ≠ 0 ∧ bit ≠ 1) :
    ∃ B, setbitM8 A (i.val : Int) (j.val : Int) bit = .ok B ∧
      (∀ r c, mat8 B r c = if r = i ∧ c = j then mat8 A r c + 1 else mat8 A r c) := by
  unfold setbitM8
  obtain ⟨B, hB, hm⟩ := C09_flipbitM8 A i j
  refine ⟨B, ?_, hm⟩
  rw [C09_readbitM8, C_pure_bind, hB, if_neg]
  simp only [beq_iff_eq]
  split
  · exact fun h => hb.2 h.symm
  · exact fun h => hb.1 h.symm

example : setbitM8 exB8 5 6 2 = .ok (exB8.set 5 0x9b) ∧
    setbitM8 exB8 5 6 (-1) = .ok (exB8.set 5 0x9b) := by decide +kernel

/-- C11: with any `bit` other than 0 and 1 `setbitM16` inverts bit (i,j) and leaves every other bit alone. -/
theorem C11_setbitM16 (A : M16) (i j : Fin 16) (bit : Int) (hb : bit ≠ 0 ∧ bit ≠ 1) :
    ∃ B, setbitM16 A (i.val : Int) (j.val : Int) bit = .ok B ∧
      (∀ r c, mat16 B r c = if r = i ∧ c = j then mat16 A r c + 1 else mat16 A r c) := by
  unfold setbitM16
  obtain ⟨B, hB, hm⟩ := C09_flipbitM16 A i j
  refine ⟨B, ?_, hm⟩
  rw [C09_readbitM16, C_pure_bind, hB, if_neg]
  simp only [beq_iff_eq]
  split
  · exact fun h => hb.2 h.symm
  · exact fun h => hb.1 h.symm

example : setbitM16 exB16 9 14 2 = .ok (exB16.set 9 0x426a) ∧
    setbitM16 exB16 9 14 (-1) = .ok (exB16.set 9 0x426a) := by decide +kernel

/-- C11: with any `bit` other than 0 and 1 `setbitM32` inverts bit (i,j) and leaves every other bit alone. -/
theorem C11_setbitM32 (A : M32) (i j : Fin 32) (bit : Int) (hb : bit ≠ 0 ∧ bit ≠ 1) :
    ∃ B, setbitM32 A (i.val : Int) (j.val : Int) bit = .ok B ∧
      (∀ r c, mat32 B r c = if r = i ∧ c = j then mat32 A r c + 1 else mat32 A r c) := by
  unfold setbitM32
  obtain ⟨B, hB, hm⟩ := C09_flipbitM32 A i j
  refine ⟨B, ?_, hm⟩
  rw [C09_readbitM32, C_pure_bind, hB, if_neg]
  simp only [beq_iff_eq]
  split
  · exact fun h => hb.2 h.symm
  · exact fun h => hb.1 h.symm

example : setbitM32 exB32 17 30 2 = .ok (exB32.set 17 0x4e4a3e2d) ∧
    setbitM32 exB32 17 30 (-1) = .ok (exB32.set 17 0x4e4a3e2d) := by decide +kernel

/-- C11: with any `bit` other than 0 and 1 `setbitM64` inverts bit (i,j) and leaves every other bit alone. -/
theorem C11_setbitM64 (A : M64) (i j : Fin 64) (bit : Int) (hb : bit ≠ 0 ∧ bit ≠ 1) :
    ∃ B, setbitM64 A (i.val : Int) (j.val : Int) bit = .ok B ∧
      (∀ r c, mat64 B r c = if r = i ∧ c = j then mat64 A r c + 1 else mat64 A r c) := by
  unfold setbitM64
  obtain ⟨B, hB, hm⟩ := C09_flipbitM64 A i j
  refine ⟨B, ?_, hm⟩
  rw [C09_readbitM64, C_pure_bind, hB, if_neg]
  simp only [beq_iff_eq]
  split
  · exact fun h => hb.2 h.symm
  · exact fun h => hb.1 h.symm

example : setbitM64 exB64 33 62 2 = .ok (exB64.set 33 0x7e1b1a84743067e5) ∧
    setbitM64 exB64 33 62 (-1) = .ok (exB64.set 33 0x7e1b1a84743067e5) := by decide +kernel

/-- C11: with any `bit` other than 0 and 1 `setbitM128` inverts bit (i,j) and leaves every other bit alone. -/
theorem C11_setbitM128 (A : M128) (i j : Fin 128) (bit : Int) (hb : bit ≠ 0 ∧ bit ≠ 1) :
    ∃ B, setbitM128 A (i.val : Int) (j.val : Int) bit = .ok B ∧
      (∀ r c, mat128 B r c = if r = i ∧ c = j then mat128 A r c + 1 else mat128 A r c) := by
  unfold setbitM128
  obtain ⟨B, hB, hm⟩ := C09_flipbitM128 A i j
  refine ⟨B, ?_, hm⟩
  rw [C09_readbitM128, C_pure_bind, hB, if_neg]
  simp only [beq_iff_eq]
  split
  · exact fun h => hb.2 h.symm
  · exact fun h => hb.1 h.symm

example : ∃ B, setbitM128 exB128 ((65 : Fin 128).val : Int) ((126 : Fin 128).val : Int) 2 = .ok B ∧
    mat128 B 65 126 = mat128 exB128 65 126 + 1 := by
  obtain ⟨B, h, hm⟩ := C11_setbitM128 exB128 65 126 2 (by decide)
  exact ⟨B, h, by rw [hm, if_pos ⟨rfl, rfl⟩]⟩

/-- C11: with any `bit` other than 0 and 1 `setbitM256` inverts bit (i,j) and leaves every other bit alone. -/
theorem C11_setbitM256 (A : M256) (i j : Fin 256) (bit : Int) (hb : bit ≠ 0 ∧ bit ≠ 1) :
    ∃ B, setbitM256 A (i.val : Int) (j.val : Int) bit = .ok B ∧
      (∀ r c, mat256 B r c = if r = i ∧ c = j then mat256 A r c + 1 else mat256 A r c) := by
  unfold setbitM256
  obtain ⟨B, hB, hm⟩ := C09_flipbitM256 A i j
  refine ⟨B, ?_, hm⟩
  rw [C09_readbitM256, C_pure_bind, hB, if_neg]
  simp only [beq_iff_eq]
  split
  · exact fun h => hb.2 h.symm
  · exact fun h => hb.1 h.symm

example : ∃ B, setbitM256 exB256 ((129 : Fin 256).val : Int) ((254 : Fin 256).val : Int) 2 = .ok B ∧
    mat256 B 129 254 = mat256 exB256 129 254 + 1 := by
  obtain ⟨B, h, hm⟩ := C11_setbitM256 exB256 129 254 2 (by decide)
  exact ⟨B, h, by rw [hm, if_pos ⟨rfl, rfl⟩]⟩

end WB
