import Verif.Proof.Bits
import Verif.Prop.Examples

/-!
# C10 — bit access needs in-range indices
-/
namespace WB
open Matrix

set_option maxRecDepth 20000

/-- C10: an index outside `0..3` makes `readbitM4`, `flipbitM4` and `setbitM4` access memory outside
an array. -/
theorem C10_bitM4 (A : M4) (i j : Int) (h : ¬ (0 ≤ i ∧ i < 4 ∧ 0 ≤ j ∧ j < 4)) :
    readbitM4 A i j = .error .oob ∧ flipbitM4 A i j = .error .oob ∧
      ∀ bit, setbitM4 A i j bit = .error .oob := by
  have h1 : readbitM4 A i j = .error .oob := by
    unfold readbitM4
    exact accS_oob A i j (by omega) _
  have h2 : flipbitM4 A i j = .error .oob := by
    unfold flipbitM4
    exact accS_oob A i j (by omega) _
  refine ⟨h1, h2, fun bit => ?_⟩
  unfold setbitM4
  rw [h1]; rfl

example : readbitM4 exB4 (-1) 0 = .error .oob ∧ readbitM4 exB4 0 4 = .error .oob ∧
    readbitM4 exB4 4 1 = .error .oob ∧ flipbitM4 exB4 3 (-4) = .error .oob := by decide +kernel

/-- C10: an index outside `0..7` makes `readbitM8`, `flipbitM8` and `setbitM8` access memory outside
an array. -/
theorem C10_bitM8 (A : M8) (i j : Int) (h : ¬ (0 ≤ i ∧ i < 8 ∧ 0 ≤ j ∧ j < 8)) :
    readbitM8 A i j = .error .oob ∧ flipbitM8 A i j = .error .oob ∧
      ∀ bit, setbitM8 A i j bit = .error .oob := by
  have h1 : readbitM8 A i j = .error .oob := by
    unfold readbitM8
    exact accS_oob A i j (by omega) _
  have h2 : flipbitM8 A i j = .error .oob := by
    unfold flipbitM8
    exact accS_oob A i j (by omega) _
  refine ⟨h1, h2, fun bit => ?_⟩
  unfold setbitM8
  rw [h1]; rfl

example : readbitM8 exB8 (-1) 0 = .error .oob ∧ readbitM8 exB8 0 8 = .error .oob ∧
    readbitM8 exB8 8 1 = .error .oob ∧ flipbitM8 exB8 3 (-8) = .error .oob := by decide +kernel

/-- C10: an index outside `0..15` makes `readbitM16`, `flipbitM16` and `setbitM16` access memory outside
an array. -/
theorem C10_bitM16 (A : M16) (i j : Int) (h : ¬ (0 ≤ i ∧ i < 16 ∧ 0 ≤ j ∧ j < 16)) :
    readbitM16 A i j = .error .oob ∧ flipbitM16 A i j = .error .oob ∧
      ∀ bit, setbitM16 A i j bit = .error .oob := by
  have h1 : readbitM16 A i j = .error .oob := by
    unfold readbitM16
    exact accS_oob A i j (by omega) _
  have h2 : flipbitM16 A i j = .error .oob := by
    unfold flipbitM16
    exact accS_oob A i j (by omega) _
  refine ⟨h1, h2, fun bit => ?_⟩
  unfold setbitM16
  rw [h1]; rfl

example : readbitM16 exB16 (-1) 0 = .error .oob ∧ readbitM16 exB16 0 16 = .error .oob ∧
    readbitM16 exB16 16 1 = .error .oob ∧ flipbitM16 exB16 3 (-16) = .error .oob := by decide +kernel

/-- C10: an index outside `0..31` makes `readbitM32`, `flipbitM32` and `setbitM32` access memory outside
an array. -/
theorem C10_bitM32 (A : M32) (i j : Int) (h : ¬ (0 ≤ i ∧ i < 32 ∧ 0 ≤ j ∧ j < 32)) :
    readbitM32 A i j = .error .oob ∧ flipbitM32 A i j = .error .oob ∧
      ∀ bit, setbitM32 A i j bit = .error .oob := by
  have h1 : readbitM32 A i j = .error .oob := by
    unfold readbitM32
    exact accS_oob A i j (by omega) _
  have h2 : flipbitM32 A i j = .error .oob := by
    unfold flipbitM32
    exact accS_oob A i j (by omega) _
  refine ⟨h1, h2, fun bit => ?_⟩
  unfold setbitM32
  rw [h1]; rfl

example : readbitM32 exB32 (-1) 0 = .error .oob ∧ readbitM32 exB32 0 32 = .error .oob ∧
    readbitM32 exB32 32 1 = .error .oob ∧ flipbitM32 exB32 3 (-32) = .error .oob := by decide +kernel

/-- C10: an index outside `0..63` makes `readbitM64`, `flipbitM64` and `setbitM64` access memory outside
an array. -/
theorem C10_bitM64 (A : M64) (i j : Int) (h : ¬ (0 ≤ i ∧ i < 64 ∧ 0 ≤ j ∧ j < 64)) :
    readbitM64 A i j = .error .oob ∧ flipbitM64 A i j = .error .oob ∧
      ∀ bit, setbitM64 A i j bit = .error .oob := by
  have h1 : readbitM64 A i j = .error .oob := by
    unfold readbitM64
    exact accS_oob A i j (by omega) _
  have h2 : flipbitM64 A i j = .error .oob := by
    unfold flipbitM64
    exact accS_oob A i j (by omega) _
  refine ⟨h1, h2, fun bit => ?_⟩
  unfold setbitM64
  rw [h1]; rfl

example : readbitM64 exB64 (-1) 0 = .error .oob ∧ readbitM64 exB64 0 64 = .error .oob ∧
    readbitM64 exB64 64 1 = .error .oob ∧ flipbitM64 exB64 3 (-64) = .error .oob := by decide +kernel

/-- C10: an index outside `0..127` makes `readbitM128`, `flipbitM128` and `setbitM128` access memory outside
an array. -/
theorem C10_bitM128 (A : M128) (i j : Int) (h : ¬ (0 ≤ i ∧ i < 128 ∧ 0 ≤ j ∧ j < 128)) :
    readbitM128 A i j = .error .oob ∧ flipbitM128 A i j = .error .oob ∧
      ∀ bit, setbitM128 A i j bit = .error .oob := by
  have h1 : readbitM128 A i j = .error .oob := by
    unfold readbitM128
    split
    · exact accW_oob A i _ 0 (by omega) (by omega) _
    · exact accW_oob A i _ 1 (by omega) (by omega) _
  have h2 : flipbitM128 A i j = .error .oob := by
    unfold flipbitM128
    split
    · exact accW_oob A i _ 0 (by omega) (by omega) _
    · exact accW_oob A i _ 1 (by omega) (by omega) _
  refine ⟨h1, h2, fun bit => ?_⟩
  unfold setbitM128
  rw [h1]; rfl

example : readbitM128 exB128 (-1) 0 = .error .oob ∧ readbitM128 exB128 0 128 = .error .oob ∧
    readbitM128 exB128 128 1 = .error .oob ∧ flipbitM128 exB128 3 (-128) = .error .oob := by decide +kernel

/-- C10: an index outside `0..255` makes `readbitM256`, `flipbitM256` and `setbitM256` access memory outside
an array. -/
theorem C10_bitM256 (A : M256) (i j : Int) (h : ¬ (0 ≤ i ∧ i < 256 ∧ 0 ≤ j ∧ j < 256)) :
    readbitM256 A i j = .error .oob ∧ flipbitM256 A i j = .error .oob ∧
      ∀ bit, setbitM256 A i j bit = .error .oob := by
  have h1 : readbitM256 A i j = .error .oob := by
    unfold readbitM256
    split
    · exact accW_oob A i _ 0 (by omega) (by omega) _
    · split
      · exact accW_oob A i _ 1 (by omega) (by omega) _
      · split
        · exact accW_oob A i _ 2 (by omega) (by omega) _
        · exact accW_oob A i _ 3 (by omega) (by omega) _
  have h2 : flipbitM256 A i j = .error .oob := by
    unfold flipbitM256
    split
    · exact accW_oob A i _ 0 (by omega) (by omega) _
    · split
      · exact accW_oob A i _ 1 (by omega) (by omega) _
      · split
        · exact accW_oob A i _ 2 (by omega) (by omega) _
        · exact accW_oob A i _ 3 (by omega) (by omega) _
  refine ⟨h1, h2, fun bit => ?_⟩
  unfold setbitM256
  rw [h1]; rfl

example : readbitM256 exB256 (-1) 0 = .error .oob ∧ readbitM256 exB256 0 256 = .error .oob ∧
    readbitM256 exB256 256 1 = .error .oob ∧ flipbitM256 exB256 3 (-256) = .error .oob := by decide +kernel

end WB
