import Mathlib.Tactic.FinCases
import Verif.Proof.M4riDjbLoop

/-!
# C116 — linear maps as programs of row additions in M4RI: the compiler (`/repo/test/github1_M4RI/src/m4ri/djb.c`)

`djb_compile(A)` turns a matrix into a program of row additions, `djb_apply_mzd(z, W, V)` executes it.  `junk` is what new memory contains.
-/
namespace WB.m4w

open WB.cmp (Mem Mem2)

variable {r c : Nat} {M : Mzd} {A : Matrix (Fin r) (Fin c) (ZMod 2)}

/-- C116, full statement: for every matrix the program computes the product with it, in a matrix that was zero before. -/
def C116_statement : Prop := ∀ (junk : Nat → Nat) {r c : Nat} {M : Mzd} {A : Matrix (Fin r) (Fin c) (ZMod 2)}, Rep M A →
  ∃ z M', djb_compile junk M = .ok (z, M') ∧ ∀ {k : Nat} {W V : Mzd} {B : Matrix (Fin c) (Fin k) (ZMod 2)}, Rep W (0 : Matrix (Fin r) (Fin k) (ZMod 2)) → Rep V B →
    ∃ W', djb_apply_mzd z W V = .ok W' ∧ Rep W' (A * B)

/-- C116, what holds: for a matrix that has rows and whose unused bits are zero, the compiler ends without a fault.  Its program has at most `r * c` operations and computes `A * B` for all `B`.
The matrix itself is zero afterwards. -/
theorem C116_compile_partial (junk : Nat → Nat) (hr : 0 < r) (hM : Rep M A) (hC : M.Clean) :
    ∃ z M', djb_compile junk M = .ok (z, M') ∧ z.ops.length ≤ r * c ∧ (∀ {k : Nat} {W V : Mzd} {B : Matrix (Fin c) (Fin k) (ZMod 2)},
      Rep W (0 : Matrix (Fin r) (Fin k) (ZMod 2)) → Rep V B → ∃ W', djb_apply_mzd z W V = .ok W' ∧ Rep W' (A * B)) ∧
      Rep M' (0 : Matrix (Fin r) (Fin c) (ZMod 2)) ∧ M'.Clean := by
  obtain ⟨⟨z, M'⟩, h1, inv⟩ := compile_ok (junk := junk) hr hM hC
  obtain ⟨X, T, L, hX, hT, hL, hA⟩ := inv.rep
  have zero : ∀ a, a < r → ∀ j, j < 64 * M'.width → M'.bit a j = false := fun a ha j hj => inv.high a ha j (Nat.zero_le _) hj
  have hX0 : X = 0 := by
    ext i j
    rw [← hX.bit, zero i i.2 j (by unfold Mzd.width; rw [hX.ncols]; have := j.2; omega)]
    rfl
  rw [hX0, Matrix.mul_zero, zero_add] at hA
  refine ⟨z, M', h1, ?_, fun {k W V B} hW hV => ?_, hX0 ▸ hX, fun a ha j _ h => zero a (by rw [hX.nrows] at ha; exact ha) j h⟩
  · exact le_trans (Nat.le_add_right _ _) inv.len
  · unfold djb_apply_mzd
    rw [if_neg (by rw [rep_width hW hV]; simp)]
    obtain ⟨W', h2, _, h3, _⟩ := hL hW hV
    rw [Matrix.mul_zero, zero_add, hA] at h3
    exact ⟨W', h2, h3⟩

/-- C116, what goes wrong: for a matrix with columns and without rows the compiler reads an element that was never put into the heap and uses it as the number of a row. -/
theorem C116_no_rows_violated (junk : Nat → Nat) (hc : 0 < c) : djb_compile junk (mzd_init 0 c) = .error .oob := by
  obtain ⟨c, rfl⟩ : ∃ d, c = d + 1 := ⟨c - 1, by omega⟩
  unfold djb_compile
  rw [show (mzd_init 0 (c + 1)).nrows = 0 from rfl, forUp_none (le_refl _), show (mzd_init 0 (c + 1)).ncols = c + 1 from rfl, show (c + 1 + 1) * (0 + 1) = c + 1 + 1 by ring]
  show djbLoop junk 0 (c + 1 + 1) (c + 1) (mzd_init 0 (c + 1)) (heap_init junk) ⟨0, c + 1, []⟩ = _
  unfold djbLoop
  rw [if_neg (by omega)]
  have h : mzd_read_bit (mzd_init 0 (c + 1)) (junk 0) (c + 1 - 1) = .error .oob := by
    unfold mzd_read_bit Mzd.get Mem2.get
    rw [if_neg (fun h => absurd h.1 (Nat.not_lt_zero _))]
    rfl
  rw [show heap_front (heap_init junk) = .ok (junk 0) from rfl, C_ok_bind, h]
  rfl

/-- A window of one column: the words of the two rows are 2 and 1, so the first row has its bit in the column next to the window. -/
def exDjbWin : Mzd := ⟨2, 1, 0, ⟨2, 1, fun i _ => if i = 0 then 2#64 else 1#64⟩⟩

/-- C116, what goes wrong: the comparison of rows looks at the bits next to a window as well.  For this window the program is empty, although the matrix is not zero. -/
theorem C116_window_violated (junk : Nat → Nat) : djb_compile junk exDjbWin = .ok (⟨2, 1, []⟩, exDjbWin) ∧ exDjbWin.bit 1 0 = true := by
  refine ⟨?_, by decide⟩
  with_unfolding_all rfl

/-- C116: the full statement does not hold. -/
theorem C116_violated : ¬ C116_statement := by
  intro h
  obtain ⟨z, M', h1, _⟩ := h (fun _ => 0) (r := 0) (c := 1) (M := mzd_init 0 1) (A := 0) ⟨⟨le_refl _, le_refl _⟩, rfl, rfl, fun i => i.elim0⟩
  rw [C116_no_rows_violated _ (by omega)] at h1
  exact absurd h1 (by simp)

/-- A matrix of three rows and two columns -/
def exDjb : Mzd := ⟨3, 2, 0, ⟨3, 1, fun i _ => if i = 0 then 3#64 else if i = 1 then 2#64 else 3#64⟩⟩

def exDjbM : Matrix (Fin 3) (Fin 2) (ZMod 2) := fun i j => if i = 1 ∧ j = 0 then 0 else 1

theorem exDjb_rep : Rep exDjb exDjbM ∧ exDjb.Clean :=
  ⟨⟨⟨le_refl _, le_refl _⟩, rfl, rfl, fun i j => by fin_cases i <;> fin_cases j <;> rfl⟩, by
    intro i hi j h1 h2
    have h2' : j < 64 := h2
    have h1' : 2 ≤ j := h1
    have hi' : i < 3 := hi
    unfold Mzd.bit Mzd.word exDjb
    show (if i = 0 then 3#64 else if i = 1 then 2#64 else 3#64).getLsbD (j % 64) = false
    rw [Nat.mod_eq_of_lt h2']
    have : ∀ i' < 3, ∀ j' < 64, 2 ≤ j' → (if i' = 0 then 3#64 else if i' = 1 then 2#64 else 3#64).getLsbD j' = false := by decide
    exact this i hi' j h2' h1'⟩

/-- The theorem applies to it. -/
example : ∃ z M', djb_compile (fun _ => 7) exDjb = .ok (z, M') ∧ z.ops.length ≤ 3 * 2 := by
  obtain ⟨z, M', h1, h2, _⟩ := C116_compile_partial (fun _ => 7) (by omega) exDjb_rep.1 exDjb_rep.2
  exact ⟨z, M', h1, h2⟩

/-- Four operations, although the matrix has five ones -/
example : (djb_compile (fun _ => 7) exDjb).map (fun s => s.1.ops.reverse) =
    .ok [⟨0, 2, .target⟩, ⟨2, 1, .target⟩, ⟨1, 1, .source⟩, ⟨2, 0, .source⟩] := by
  with_unfolding_all rfl

end WB.m4w
