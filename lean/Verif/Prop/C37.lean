import Verif.Proof.Print
import Verif.Proof.Inj
import Verif.Prop.Examples

/-!
# C37 — `printbit` shows the matrix
-/
namespace WB
open Matrix

theorem bitF_one (b : Bool) : (bitF b = 1) ↔ b = true := by cases b <;> decide

theorem bitRow_eq {R : Type} {n : Nat} (bit : R → Nat → Bool) (A : Vector R n) (i : Fin n) :
    (List.ofFn fun j : Fin n => [if matOf n bit A i j = 1 then '1' else '0', ' ']).flatten =
    (List.ofFn fun j : Fin n => [if bit A[i] j then '1' else '0', ' ']).flatten := by
  congr 2
  funext j
  simp only [matOf, bitF_one]

/-- The row loop of `printbit`. -/
theorem bitRows {R : Type} {n : Nat} (bit : R → Nat → Bool) (A : Vector R n) (f : Nat → Unit → CM Unit)
    (w : World) (hf : ∀ (i : Fin n) w, f i () w = .ok ((), w.put
      ((List.ofFn fun j : Fin n => [if bit A[i] j then '1' else '0', ' ']).flatten ++ ['\n']))) :
    (forUp 0 n () f >>= fun _ => printf "\n" []) w = .ok ((), w.put (bitText (matOf n bit A))) := by
  rw [CM_bind_run (outFor n f _ (fun _ => ()) w hf), printf_run _ (s := ['\n']) rfl, put_put]
  unfold bitText
  simp only [bitRow_eq]

theorem bitW2 (x : Vector (BitVec 64) 2) :
    (List.ofFn fun j : Fin 128 => [if bitW x j then '1' else '0', ' ']).flatten =
      bitDigits x[0] 63 64 ++ bitDigits x[1] 63 64 := by
  rw [show (List.ofFn fun j : Fin 128 => [if bitW x j then '1' else '0', ' ']) =
    List.ofFn (n := 64 + 64) fun j => [if bitW x j then '1' else '0', ' '] from rfl, List.ofFn_add,
    List.flatten_append]
  unfold bitDigits
  congr 3
  · funext j
    have h : (j : Nat) / 64 = 0 := by omega
    have h' : (j : Nat) % 64 = j := by omega
    simp [bitW, h, h']
  · funext j
    have h : (64 + (j : Nat)) / 64 = 1 := by omega
    have h' : (64 + (j : Nat)) % 64 = j := by omega
    simp only [bitW, Fin.val_natAdd, h, h']
    rfl

/-- C37: `printbitM4` prints the 4 rows of 4 digits. -/
theorem C37_printbitM4 (A : M4) (w : World) :
    printbitM4 A w = .ok ((), { w with out := w.out ++ bitText (mat4 A) }) := by
  refine bitRows (bitS 4) A _ w fun i w => ?_
  rw [CM_bind_run (liftC_run w (rd_ok A i i.isLt)),
    CM_bind_run (bitLoop 3 4 (by omega) (by omega) 0x08 (by decide) A[(i : Nat)] w),
    printf_run _ (s := ['\n']) rfl, put_put]
  rfl

/-- C37: `printbitM8` prints the 8 rows of 8 digits. -/
theorem C37_printbitM8 (A : M8) (w : World) :
    printbitM8 A w = .ok ((), { w with out := w.out ++ bitText (mat8 A) }) := by
  refine bitRows (bitS 8) A _ w fun i w => ?_
  rw [CM_bind_run (liftC_run w (rd_ok A i i.isLt)),
    CM_bind_run (bitLoop 7 8 (by omega) (by omega) 0x80 (by decide) A[(i : Nat)] w),
    printf_run _ (s := ['\n']) rfl, put_put]
  rfl

/-- C37: `printbitM16` prints the 16 rows of 16 digits. -/
theorem C37_printbitM16 (A : M16) (w : World) :
    printbitM16 A w = .ok ((), { w with out := w.out ++ bitText (mat16 A) }) := by
  refine bitRows (bitS 16) A _ w fun i w => ?_
  rw [CM_bind_run (liftC_run w (rd_ok A i i.isLt)),
    CM_bind_run (bitLoop 15 16 (by omega) (by omega) 0x8000 (by decide) A[(i : Nat)] w),
    printf_run _ (s := ['\n']) rfl, put_put]
  rfl

/-- C37: `printbitM32` prints the 32 rows of 32 digits. -/
theorem C37_printbitM32 (A : M32) (w : World) :
    printbitM32 A w = .ok ((), { w with out := w.out ++ bitText (mat32 A) }) := by
  refine bitRows (bitS 32) A _ w fun i w => ?_
  rw [CM_bind_run (liftC_run w (rd_ok A i i.isLt)),
    CM_bind_run (bitLoop 31 32 (by omega) (by omega) 0x80000000 (by decide) A[(i : Nat)] w),
    printf_run _ (s := ['\n']) rfl, put_put]
  rfl

/-- C37: `printbitM64` prints the 64 rows of 64 digits. -/
theorem C37_printbitM64 (A : M64) (w : World) :
    printbitM64 A w = .ok ((), { w with out := w.out ++ bitText (mat64 A) }) := by
  refine bitRows (bitS 64) A _ w fun i w => ?_
  rw [CM_bind_run (liftC_run w (rd_ok A i i.isLt)),
    CM_bind_run (bitLoop 63 64 (by omega) (by omega) 0x8000000000000000 (by decide) A[(i : Nat)] w),
    printf_run _ (s := ['\n']) rfl, put_put]
  rfl

/-- C37: `printbitM128` prints the 128 rows of 128 digits. -/
theorem C37_printbitM128 (A : M128) (w : World) :
    printbitM128 A w = .ok ((), { w with out := w.out ++ bitText (mat128 A) }) := by
  refine bitRows bitW A _ w fun i w => ?_
  rw [CM_bind_run (liftC_run w (rd2_ok A i 0 i.isLt (by omega))),
    CM_bind_run (bitLoop 63 64 (by omega) (by omega) 0x8000000000000000 (by decide) A[(i : Nat)][0] w),
    CM_bind_run (liftC_run _ (rd2_ok A i 1 i.isLt (by omega))),
    CM_bind_run (bitLoop 63 64 (by omega) (by omega) 0x8000000000000000 (by decide) A[(i : Nat)][1] _),
    printf_run _ (s := ['\n']) rfl, put_put, put_put, bitW2, List.append_assoc]
  rfl

/-- C37: different matrices over GF(2) have different texts. -/
theorem C37_bitText_injective {n : Nat} (A B : Matrix (Fin n) (Fin n) (ZMod 2)) (h : bitText A = bitText B) :
    A = B := bitText_inj h

/-- C37: different 4×4 matrices give different outputs (the high nibble is not printed, so the stored matrices are
assumed to be clean). -/
theorem C37_printbitM4_injective (A B : M4) (hA : CleanM4 A) (hB : CleanM4 B) (hne : A ≠ B) (w : World) :
    ∃ w1 w2, printbitM4 A w = .ok ((), w1) ∧ printbitM4 B w = .ok ((), w2) ∧ w1.out ≠ w2.out := by
  refine ⟨_, _, C37_printbitM4 A w, C37_printbitM4 B w, fun h => hne (mat4_inj hA hB ?_)⟩
  exact bitText_inj (List.append_cancel_left h)

/-- C37: different matrices give different outputs. -/
theorem C37_printbitM8_injective (A B : M8) (hne : A ≠ B) (w : World) :
    ∃ w1 w2, printbitM8 A w = .ok ((), w1) ∧ printbitM8 B w = .ok ((), w2) ∧ w1.out ≠ w2.out := by
  refine ⟨_, _, C37_printbitM8 A w, C37_printbitM8 B w, fun h => hne (mat8_inj ?_)⟩
  exact bitText_inj (List.append_cancel_left h)

/-- C37: different matrices give different outputs. -/
theorem C37_printbitM16_injective (A B : M16) (hne : A ≠ B) (w : World) :
    ∃ w1 w2, printbitM16 A w = .ok ((), w1) ∧ printbitM16 B w = .ok ((), w2) ∧ w1.out ≠ w2.out := by
  refine ⟨_, _, C37_printbitM16 A w, C37_printbitM16 B w, fun h => hne (mat16_inj ?_)⟩
  exact bitText_inj (List.append_cancel_left h)

/-- C37: different matrices give different outputs. -/
theorem C37_printbitM32_injective (A B : M32) (hne : A ≠ B) (w : World) :
    ∃ w1 w2, printbitM32 A w = .ok ((), w1) ∧ printbitM32 B w = .ok ((), w2) ∧ w1.out ≠ w2.out := by
  refine ⟨_, _, C37_printbitM32 A w, C37_printbitM32 B w, fun h => hne (mat32_inj ?_)⟩
  exact bitText_inj (List.append_cancel_left h)

/-- C37: different matrices give different outputs. -/
theorem C37_printbitM64_injective (A B : M64) (hne : A ≠ B) (w : World) :
    ∃ w1 w2, printbitM64 A w = .ok ((), w1) ∧ printbitM64 B w = .ok ((), w2) ∧ w1.out ≠ w2.out := by
  refine ⟨_, _, C37_printbitM64 A w, C37_printbitM64 B w, fun h => hne (mat64_inj ?_)⟩
  exact bitText_inj (List.append_cancel_left h)

/-- C37: different matrices give different outputs. -/
theorem C37_printbitM128_injective (A B : M128) (hne : A ≠ B) (w : World) :
    ∃ w1 w2, printbitM128 A w = .ok ((), w1) ∧ printbitM128 B w = .ok ((), w2) ∧ w1.out ≠ w2.out := by
  refine ⟨_, _, C37_printbitM128 A w, C37_printbitM128 B w, fun h => hne (mat128_inj ?_)⟩
  exact bitText_inj (List.append_cancel_left h)

example : (printbitM4 exA4 exWorld).toOption.map (fun r => String.ofList r.2.out) =
    some "1 1 0 0 \n0 1 1 0 \n0 0 1 1 \n0 0 0 1 \n\n" := by decide +kernel
example : CleanM4 exA4 ∧ CleanM4 exB4 ∧ exA4 ≠ exB4 := by decide +kernel
example : exA8 ≠ exB8 ∧ exA128 ≠ exB128 := by decide +kernel

end WB
