import Verif.Proof.Bits
import Verif.Prop.Examples

/-!
# C09 — bit access laws
-/
namespace WB
open Matrix

set_option maxRecDepth 20000

/-- C09: `readbitM4` returns bit (i,j). -/
theorem C09_readbitM4 (A : M4) (i j : Fin 4) :
    readbitM4 A (i.val : Int) (j.val : Int) = .ok (if mat4 A i j = 1 then 1 else 0) := by
  unfold readbitM4
  exact readS idOK4 A i j

/-- C09: `flipbitM4` inverts bit (i,j) and leaves every other bit alone; for the bits outside the matrix (high nibbles) nothing changes either. -/
theorem C09_flipbitM4 (A : M4) (i j : Fin 4) :
    ∃ B, flipbitM4 A (i.val : Int) (j.val : Int) = .ok B ∧
      (∀ r c, mat4 B r c = if r = i ∧ c = j then mat4 A r c + 1 else mat4 A r c) ∧ ∀ r : Fin 4, B[r] >>> 4 = A[r] >>> 4 := by
  unfold flipbitM4
  refine ⟨_, flipS_eq idOK4 A i j, fun r c => flipS_mat (by norm_num) A i j r c, ?_⟩
  intro r
  simp only [Fin.getElem_fin, Vector.getElem_set]
  split
  · rename_i h
    simp only [← h]
    apply BitVec.eq_of_getLsbD_eq
    intro k hk
    simp only [BitVec.getLsbD_ushiftRight, BitVec.getLsbD_xor, BitVec.getLsbD_twoPow]
    rw [show decide (4 - 1 - j.val = 4 + k) = false from decide_eq_false (by omega)]
    simp
  · rfl

/-- C09: `setbitM4` makes bit (i,j) equal to `bit` and leaves every other bit alone; for the bits outside the matrix (high nibbles) nothing changes either. -/
theorem C09_setbitM4 (A : M4) (i j : Fin 4) (bit : Int) (hb : bit = 0 ∨ bit = 1) :
    ∃ B, setbitM4 A (i.val : Int) (j.val : Int) bit = .ok B ∧
      (∀ r c, mat4 B r c = if r = i ∧ c = j then (bit : ZMod 2) else mat4 A r c) ∧ ∀ r : Fin 4, B[r] >>> 4 = A[r] >>> 4 := by
  unfold setbitM4
  obtain ⟨B, hB, hm, hh⟩ := C09_flipbitM4 A i j
  rw [C09_readbitM4, C_pure_bind, hB]
  have z : ∀ a : ZMod 2, a = 0 ∨ a = 1 := by decide
  obtain h | h := z (mat4 A i j)
  · rw [if_neg (show ¬ mat4 A i j = 1 by rw [h]; decide)]
    obtain rfl | rfl := hb
    · refine ⟨A, rfl, fun r c => ?_, fun _ => rfl⟩
      split
      · rename_i e; rw [e.1, e.2, h]; rfl
      · rfl
    · refine ⟨B, rfl, fun r c => ?_, hh⟩
      rw [hm]
      split
      · rename_i e; rw [e.1, e.2, h]; decide
      · rfl
  · rw [if_pos h]
    obtain rfl | rfl := hb
    · refine ⟨B, rfl, fun r c => ?_, hh⟩
      rw [hm]
      split
      · rename_i e; rw [e.1, e.2, h]; decide
      · rfl
    · refine ⟨A, rfl, fun r c => ?_, fun _ => rfl⟩
      split
      · rename_i e; rw [e.1, e.2, h]; rfl
      · rfl

example : readbitM4 exB4 3 2 = .ok 0 ∧ readbitM4 exB4 3 1 = .ok 1 := by decide +kernel
example : flipbitM4 exB4 3 2 = .ok (exB4.set 3 0xf) := by decide +kernel
example : setbitM4 exB4 3 2 1 = .ok (exB4.set 3 0xf) ∧
    setbitM4 exB4 3 2 0 = .ok exB4 := by decide +kernel

/-- C09: `readbitM8` returns bit (i,j). -/
theorem C09_readbitM8 (A : M8) (i j : Fin 8) :
    readbitM8 A (i.val : Int) (j.val : Int) = .ok (if mat8 A i j = 1 then 1 else 0) := by
  unfold readbitM8
  exact readS idOK8 A i j

/-- C09: `flipbitM8` inverts bit (i,j) and leaves every other bit alone. -/
theorem C09_flipbitM8 (A : M8) (i j : Fin 8) :
    ∃ B, flipbitM8 A (i.val : Int) (j.val : Int) = .ok B ∧
      (∀ r c, mat8 B r c = if r = i ∧ c = j then mat8 A r c + 1 else mat8 A r c) := by
  unfold flipbitM8
  refine ⟨_, flipS_eq idOK8 A i j, fun r c => flipS_mat (by norm_num) A i j r c⟩

/-- C09: `setbitM8` makes bit (i,j) equal to `bit` and leaves every other bit alone. -/
theorem C09_setbitM8 (A : M8) (i j : Fin 8) (bit : Int) (hb : bit = 0 ∨ bit = 1) :
    ∃ B, setbitM8 A (i.val : Int) (j.val : Int) bit = .ok B ∧
      (∀ r c, mat8 B r c = if r = i ∧ c = j then (bit : ZMod 2) else mat8 A r c) := by
  unfold setbitM8
  obtain ⟨B, hB, hm⟩ := C09_flipbitM8 A i j
  rw [C09_readbitM8, C_pure_bind, hB]
  have z : ∀ a : ZMod 2, a = 0 ∨ a = 1 := by decide
  obtain h | h := z (mat8 A i j)
  · rw [if_neg (show ¬ mat8 A i j = 1 by rw [h]; decide)]
    obtain rfl | rfl := hb
    · refine ⟨A, rfl, fun r c => ?_⟩
      split
      · rename_i e; rw [e.1, e.2, h]; rfl
      · rfl
    · refine ⟨B, rfl, fun r c => ?_⟩
      rw [hm]
      split
      · rename_i e; rw [e.1, e.2, h]; decide
      · rfl
  · rw [if_pos h]
    obtain rfl | rfl := hb
    · refine ⟨B, rfl, fun r c => ?_⟩
      rw [hm]
      split
      · rename_i e; rw [e.1, e.2, h]; decide
      · rfl
    · refine ⟨A, rfl, fun r c => ?_⟩
      split
      · rename_i e; rw [e.1, e.2, h]; rfl
      · rfl

example : readbitM8 exB8 5 6 = .ok 0 ∧ readbitM8 exB8 5 5 = .ok 0 := by decide +kernel
example : flipbitM8 exB8 5 6 = .ok (exB8.set 5 0x9b) := by decide +kernel
example : setbitM8 exB8 5 6 1 = .ok (exB8.set 5 0x9b) ∧
    setbitM8 exB8 5 6 0 = .ok exB8 := by decide +kernel

/-- C09: `readbitM16` returns bit (i,j). -/
theorem C09_readbitM16 (A : M16) (i j : Fin 16) :
    readbitM16 A (i.val : Int) (j.val : Int) = .ok (if mat16 A i j = 1 then 1 else 0) := by
  unfold readbitM16
  exact readS idOK16 A i j

/-- C09: `flipbitM16` inverts bit (i,j) and leaves every other bit alone. -/
theorem C09_flipbitM16 (A : M16) (i j : Fin 16) :
    ∃ B, flipbitM16 A (i.val : Int) (j.val : Int) = .ok B ∧
      (∀ r c, mat16 B r c = if r = i ∧ c = j then mat16 A r c + 1 else mat16 A r c) := by
  unfold flipbitM16
  refine ⟨_, flipS_eq idOK16 A i j, fun r c => flipS_mat (by norm_num) A i j r c⟩

/-- C09: `setbitM16` makes bit (i,j) equal to `bit` and leaves every other bit alone. -/
theorem C09_setbitM16 (A : M16) (i j : Fin 16) (bit : Int) (hb : bit = 0 ∨ bit = 1) :
    ∃ B, setbitM16 A (i.val : Int) (j.val : Int) bit = .ok B ∧
      (∀ r c, mat16 B r c = if r = i ∧ c = j then (bit : ZMod 2) else mat16 A r c) := by
  unfold setbitM16
  obtain ⟨B, hB, hm⟩ := C09_flipbitM16 A i j
  rw [C09_readbitM16, C_pure_bind, hB]
  have z : ∀ a : ZMod 2, a = 0 ∨ a = 1 := by decide
  obtain h | h := z (mat16 A i j)
  · rw [if_neg (show ¬ mat16 A i j = 1 by rw [h]; decide)]
    obtain rfl | rfl := hb
    · refine ⟨A, rfl, fun r c => ?_⟩
      split
      · rename_i e; rw [e.1, e.2, h]; rfl
      · rfl
    · refine ⟨B, rfl, fun r c => ?_⟩
      rw [hm]
      split
      · rename_i e; rw [e.1, e.2, h]; decide
      · rfl
  · rw [if_pos h]
    obtain rfl | rfl := hb
    · refine ⟨B, rfl, fun r c => ?_⟩
      rw [hm]
      split
      · rename_i e; rw [e.1, e.2, h]; decide
      · rfl
    · refine ⟨A, rfl, fun r c => ?_⟩
      split
      · rename_i e; rw [e.1, e.2, h]; rfl
      · rfl

example : readbitM16 exB16 9 14 = .ok 0 ∧ readbitM16 exB16 9 13 = .ok 0 := by decide +kernel
example : flipbitM16 exB16 9 14 = .ok (exB16.set 9 0x426a) := by decide +kernel
example : setbitM16 exB16 9 14 1 = .ok (exB16.set 9 0x426a) ∧
    setbitM16 exB16 9 14 0 = .ok exB16 := by decide +kernel

/-- C09: `readbitM32` returns bit (i,j). -/
theorem C09_readbitM32 (A : M32) (i j : Fin 32) :
    readbitM32 A (i.val : Int) (j.val : Int) = .ok (if mat32 A i j = 1 then 1 else 0) := by
  unfold readbitM32
  exact readS idOK32 A i j

/-- C09: `flipbitM32` inverts bit (i,j) and leaves every other bit alone. -/
theorem C09_flipbitM32 (A : M32) (i j : Fin 32) :
    ∃ B, flipbitM32 A (i.val : Int) (j.val : Int) = .ok B ∧
      (∀ r c, mat32 B r c = if r = i ∧ c = j then mat32 A r c + 1 else mat32 A r c) := by
  unfold flipbitM32
  refine ⟨_, flipS_eq idOK32 A i j, fun r c => flipS_mat (by norm_num) A i j r c⟩

/-- C09: `setbitM32` makes bit (i,j) equal to `bit` and leaves every other bit alone. -/
theorem C09_setbitM32 (A : M32) (i j : Fin 32) (bit : Int) (hb : bit = 0 ∨ bit = 1) :
    ∃ B, setbitM32 A (i.val : Int) (j.val : Int) bit = .ok B ∧
      (∀ r c, mat32 B r c = if r = i ∧ c = j then (bit : ZMod 2) else mat32 A r c) := by
  unfold setbitM32
  obtain ⟨B, hB, hm⟩ := C09_flipbitM32 A i j
  rw [C09_readbitM32, C_pure_bind, hB]
  have z : ∀ a : ZMod 2, a = 0 ∨ a = 1 := by decide
  obtain h | h := z (mat32 A i j)
  · rw [if_neg (show ¬ mat32 A i j = 1 by rw [h]; decide)]
    obtain rfl | rfl := hb
    · refine ⟨A, rfl, fun r c => ?_⟩
      split
      · rename_i e; rw [e.1, e.2, h]; rfl
      · rfl
    · refine ⟨B, rfl, fun r c => ?_⟩
      rw [hm]
      split
      · rename_i e; rw [e.1, e.2, h]; decide
      · rfl
  · rw [if_pos h]
    obtain rfl | rfl := hb
    · refine ⟨B, rfl, fun r c => ?_⟩
      rw [hm]
      split
      · rename_i e; rw [e.1, e.2, h]; decide
      · rfl
    · refine ⟨A, rfl, fun r c => ?_⟩
      split
      · rename_i e; rw [e.1, e.2, h]; rfl
      · rfl

example : readbitM32 exB32 17 30 = .ok 1 ∧ readbitM32 exB32 17 29 = .ok 1 := by decide +kernel
example : flipbitM32 exB32 17 30 = .ok (exB32.set 17 0x4e4a3e2d) := by decide +kernel
example : setbitM32 exB32 17 30 0 = .ok (exB32.set 17 0x4e4a3e2d) ∧
    setbitM32 exB32 17 30 1 = .ok exB32 := by decide +kernel

/-- C09: `readbitM64` returns bit (i,j). -/
theorem C09_readbitM64 (A : M64) (i j : Fin 64) :
    readbitM64 A (i.val : Int) (j.val : Int) = .ok (if mat64 A i j = 1 then 1 else 0) := by
  unfold readbitM64
  exact readS idOK64 A i j

/-- C09: `flipbitM64` inverts bit (i,j) and leaves every other bit alone. -/
theorem C09_flipbitM64 (A : M64) (i j : Fin 64) :
    ∃ B, flipbitM64 A (i.val : Int) (j.val : Int) = .ok B ∧
      (∀ r c, mat64 B r c = if r = i ∧ c = j then mat64 A r c + 1 else mat64 A r c) := by
  unfold flipbitM64
  refine ⟨_, flipS_eq idOK64 A i j, fun r c => flipS_mat (by norm_num) A i j r c⟩

/-- C09: `setbitM64` makes bit (i,j) equal to `bit` and leaves every other bit alone. -/
theorem C09_setbitM64 (A : M64) (i j : Fin 64) (bit : Int) (hb : bit = 0 ∨ bit = 1) :
    ∃ B, setbitM64 A (i.val : Int) (j.val : Int) bit = .ok B ∧
      (∀ r c, mat64 B r c = if r = i ∧ c = j then (bit : ZMod 2) else mat64 A r c) := by
  unfold setbitM64
  obtain ⟨B, hB, hm⟩ := C09_flipbitM64 A i j
  rw [C09_readbitM64, C_pure_bind, hB]
  have z : ∀ a : ZMod 2, a = 0 ∨ a = 1 := by decide
  obtain h | h := z (mat64 A i j)
  · rw [if_neg (show ¬ mat64 A i j = 1 by rw [h]; decide)]
    obtain rfl | rfl := hb
    · refine ⟨A, rfl, fun r c => ?_⟩
      split
      · rename_i e; rw [e.1, e.2, h]; rfl
      · rfl
    · refine ⟨B, rfl, fun r c => ?_⟩
      rw [hm]
      split
      · rename_i e; rw [e.1, e.2, h]; decide
      · rfl
  · rw [if_pos h]
    obtain rfl | rfl := hb
    · refine ⟨B, rfl, fun r c => ?_⟩
      rw [hm]
      split
      · rename_i e; rw [e.1, e.2, h]; decide
      · rfl
    · refine ⟨A, rfl, fun r c => ?_⟩
      split
      · rename_i e; rw [e.1, e.2, h]; rfl
      · rfl

example : readbitM64 exB64 33 62 = .ok 1 ∧ readbitM64 exB64 33 61 = .ok 1 := by decide +kernel
example : flipbitM64 exB64 33 62 = .ok (exB64.set 33 0x7e1b1a84743067e5) := by decide +kernel
example : setbitM64 exB64 33 62 0 = .ok (exB64.set 33 0x7e1b1a84743067e5) ∧
    setbitM64 exB64 33 62 1 = .ok exB64 := by decide +kernel

/-- C09: `readbitM128` returns bit (i,j). -/
theorem C09_readbitM128 (A : M128) (i j : Fin 128) :
    readbitM128 A (i.val : Int) (j.val : Int) = .ok (if mat128 A i j = 1 then 1 else 0) := by
  unfold readbitM128
  split
  · exact readW (by norm_num) idOK64 A i j 0 _ (by omega) (by omega) (by omega)
  · exact readW (by norm_num) idOK64 A i j 1 _ (by omega) (by omega) (by omega)

/-- C09: `flipbitM128` inverts bit (i,j) and leaves every other bit alone. -/
theorem C09_flipbitM128 (A : M128) (i j : Fin 128) :
    ∃ B, flipbitM128 A (i.val : Int) (j.val : Int) = .ok B ∧
      (∀ r c, mat128 B r c = if r = i ∧ c = j then mat128 A r c + 1 else mat128 A r c) := by
  unfold flipbitM128
  split
  · exact flipW_eq (by norm_num) idOK64 A i j 0 _ (by omega) (by omega) (by omega)
  · exact flipW_eq (by norm_num) idOK64 A i j 1 _ (by omega) (by omega) (by omega)

/-- C09: `setbitM128` makes bit (i,j) equal to `bit` and leaves every other bit alone. -/
theorem C09_setbitM128 (A : M128) (i j : Fin 128) (bit : Int) (hb : bit = 0 ∨ bit = 1) :
    ∃ B, setbitM128 A (i.val : Int) (j.val : Int) bit = .ok B ∧
      (∀ r c, mat128 B r c = if r = i ∧ c = j then (bit : ZMod 2) else mat128 A r c) := by
  unfold setbitM128
  obtain ⟨B, hB, hm⟩ := C09_flipbitM128 A i j
  rw [C09_readbitM128, C_pure_bind, hB]
  have z : ∀ a : ZMod 2, a = 0 ∨ a = 1 := by decide
  obtain h | h := z (mat128 A i j)
  · rw [if_neg (show ¬ mat128 A i j = 1 by rw [h]; decide)]
    obtain rfl | rfl := hb
    · refine ⟨A, rfl, fun r c => ?_⟩
      split
      · rename_i e; rw [e.1, e.2, h]; rfl
      · rfl
    · refine ⟨B, rfl, fun r c => ?_⟩
      rw [hm]
      split
      · rename_i e; rw [e.1, e.2, h]; decide
      · rfl
  · rw [if_pos h]
    obtain rfl | rfl := hb
    · refine ⟨B, rfl, fun r c => ?_⟩
      rw [hm]
      split
      · rename_i e; rw [e.1, e.2, h]; decide
      · rfl
    · refine ⟨A, rfl, fun r c => ?_⟩
      split
      · rename_i e; rw [e.1, e.2, h]; rfl
      · rfl

example : readbitM128 exB128 65 126 = .ok 0 ∧ readbitM128 exB128 65 125 = .ok 0 := by decide +kernel
example : ∃ C, setbitM128 exB128 ((65 : Fin 128).val : Int) ((126 : Fin 128).val : Int) 1 = .ok C ∧
    ∀ r c, mat128 C r c = if r = 65 ∧ c = 126 then ((1 : Int) : ZMod 2) else mat128 exB128 r c :=
  C09_setbitM128 exB128 65 126 1 (Or.inr rfl)

/-- C09: `readbitM256` returns bit (i,j). -/
theorem C09_readbitM256 (A : M256) (i j : Fin 256) :
    readbitM256 A (i.val : Int) (j.val : Int) = .ok (if mat256 A i j = 1 then 1 else 0) := by
  unfold readbitM256
  split
  · exact readW (by norm_num) idOK64 A i j 0 _ (by omega) (by omega) (by omega)
  · split
    · exact readW (by norm_num) idOK64 A i j 1 _ (by omega) (by omega) (by omega)
    · split
      · exact readW (by norm_num) idOK64 A i j 2 _ (by omega) (by omega) (by omega)
      · exact readW (by norm_num) idOK64 A i j 3 _ (by omega) (by omega) (by omega)

/-- C09: `flipbitM256` inverts bit (i,j) and leaves every other bit alone. -/
theorem C09_flipbitM256 (A : M256) (i j : Fin 256) :
    ∃ B, flipbitM256 A (i.val : Int) (j.val : Int) = .ok B ∧
      (∀ r c, mat256 B r c = if r = i ∧ c = j then mat256 A r c + 1 else mat256 A r c) := by
  unfold flipbitM256
  split
  · exact flipW_eq (by norm_num) idOK64 A i j 0 _ (by omega) (by omega) (by omega)
  · split
    · exact flipW_eq (by norm_num) idOK64 A i j 1 _ (by omega) (by omega) (by omega)
    · split
      · exact flipW_eq (by norm_num) idOK64 A i j 2 _ (by omega) (by omega) (by omega)
      · exact flipW_eq (by norm_num) idOK64 A i j 3 _ (by omega) (by omega) (by omega)

/-- C09: `setbitM256` makes bit (i,j) equal to `bit` and leaves every other bit alone. -/
theorem C09_setbitM256 (A : M256) (i j : Fin 256) (bit : Int) (hb : bit = 0 ∨ bit = 1) :
    ∃ B, setbitM256 A (i.val : Int) (j.val : Int) bit = .ok B ∧
      (∀ r c, mat256 B r c = if r = i ∧ c = j then (bit : ZMod 2) else mat256 A r c) := by
  unfold setbitM256
  obtain ⟨B, hB, hm⟩ := C09_flipbitM256 A i j
  rw [C09_readbitM256, C_pure_bind, hB]
  have z : ∀ a : ZMod 2, a = 0 ∨ a = 1 := by decide
  obtain h | h := z (mat256 A i j)
  · rw [if_neg (show ¬ mat256 A i j = 1 by rw [h]; decide)]
    obtain rfl | rfl := hb
    · refine ⟨A, rfl, fun r c => ?_⟩
      split
      · rename_i e; rw [e.1, e.2, h]; rfl
      · rfl
    · refine ⟨B, rfl, fun r c => ?_⟩
      rw [hm]
      split
      · rename_i e; rw [e.1, e.2, h]; decide
      · rfl
  · rw [if_pos h]
    obtain rfl | rfl := hb
    · refine ⟨B, rfl, fun r c => ?_⟩
      rw [hm]
      split
      · rename_i e; rw [e.1, e.2, h]; decide
      · rfl
    · refine ⟨A, rfl, fun r c => ?_⟩
      split
      · rename_i e; rw [e.1, e.2, h]; rfl
      · rfl

example : readbitM256 exB256 129 254 = .ok 0 ∧ readbitM256 exB256 129 253 = .ok 0 := by decide +kernel
example : ∃ C, setbitM256 exB256 ((129 : Fin 256).val : Int) ((254 : Fin 256).val : Int) 1 = .ok C ∧
    ∀ r c, mat256 C r c = if r = 129 ∧ c = 254 then ((1 : Int) : ZMod 2) else mat256 exB256 r c :=
  C09_setbitM256 exB256 129 254 1 (Or.inr rfl)

end WB
