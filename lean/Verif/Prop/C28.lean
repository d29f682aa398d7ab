import Verif.Proof.RandRun
import Verif.Prop.Examples

/-!
# C28 — random matrices have pairwise different rows
-/
namespace WB
open Matrix

theorem word_ne (env : Env) (w : World) {a b q p : Nat} (h : a + 2 * q < b + 2 * p)
    (hd : b + 2 * p - (a + 2 * q) < 2 ^ 32) : (w.adv a).word env q ≠ (w.adv b).word env p := by
  intro e
  unfold World.word at e
  have := (pair64_inj e).1
  rw [draw_adv, draw_adv] at this
  exact draw_ne h hd this

theorem word_ne' (env : Env) (w : World) {a b q p : Nat} (h : a + 2 * q ≠ b + 2 * p)
    (ha : a + 2 * q < 2 ^ 32) (hb : b + 2 * p < 2 ^ 32) :
    (w.adv a).word env q ≠ (w.adv b).word env p := by
  rcases Nat.lt_or_gt_of_ne h with h | h
  · exact word_ne env w h (by omega)
  · exact (word_ne env w h (by omega)).symm

/-- C28: the rows of a random 32×32 matrix are pairwise different. -/
theorem C28_randM32 (M : M32) (w : World) : ∃ A w', randM32 M w = .ok (A, w') ∧
    ∀ i j (hi : i < 32) (hj : j < 32), i ≠ j → A[i] ≠ A[j] := by
  refine ⟨_, _, randM32_run M w, fun i j hi hj hij => ?_⟩
  simp only [Vector.getElem_ofFn]
  rcases Nat.lt_or_gt_of_ne hij with h | h
  · exact draw_ne h (by omega)
  · exact (draw_ne h (by omega)).symm

/-- C28: the rows of a random 64×64 matrix are pairwise different. -/
theorem C28_randM64 (env : Env) (M : M64) (w : World) : ∃ A w', randM64 env M w = .ok (A, w') ∧
    ∀ i j (hi : i < 64) (hj : j < 64), i ≠ j → A[i] ≠ A[j] := by
  refine ⟨_, _, randM64_run env M w, fun i j hi hj hij => ?_⟩
  simp only [Vector.getElem_ofFn]
  exact word_ne' env _ (by omega) (by omega) (by omega)

/-- C28: all 256 words of a random 128×128 matrix are pairwise different. -/
theorem C28_randM128_words (env : Env) (M : M128) (w : World) : ∃ A w', randM128 env M w = .ok (A, w') ∧
    ∀ i j (hi : i < 128) (hj : j < 128) q p (hq : q < 2) (hp : p < 2), (i, q) ≠ (j, p) →
      A[i][q] ≠ A[j][p] := by
  refine ⟨_, _, randM128_run env M w, fun i j hi hj q p hq hp hne => ?_⟩
  have key : ∀ i (hi : i < 128) q (hq : q < 2),
      (Vector.ofFn (n := 128) fun i => #v[(w.seeded.adv (4 * i)).word env 0, (w.seeded.adv (4 * i)).word env 1])[i][q] =
        (w.seeded.adv (4 * i)).word env q := by
    intro i hi q hq
    have : q = 0 ∨ q = 1 := by omega
    rw [Vector.getElem_ofFn]
    rcases this with rfl | rfl <;> rfl
  rw [key i hi q hq, key j hj p hp]
  have : i = j → q ≠ p := fun h h' => hne (by rw [h, h'])
  exact word_ne' env _ (by omega) (by omega) (by omega)

/-- C28: the rows of a random 128×128 matrix are pairwise different. -/
theorem C28_randM128 (env : Env) (M : M128) (w : World) : ∃ A w', randM128 env M w = .ok (A, w') ∧
    ∀ i j (hi : i < 128) (hj : j < 128), i ≠ j → A[i] ≠ A[j] := by
  obtain ⟨A, w', h, hA⟩ := C28_randM128_words env M w
  refine ⟨A, w', h, fun i j hi hj hij e => ?_⟩
  exact hA i j hi hj 0 0 (by omega) (by omega) (by simp [hij]) (by rw [e])

/-- C28: all 1024 words of a random 256×256 matrix are pairwise different. -/
theorem C28_randM256_words (env : Env) (M : M256) (w : World) : ∃ A w', randM256 env M w = .ok (A, w') ∧
    ∀ i j (hi : i < 256) (hj : j < 256) q p (hq : q < 4) (hp : p < 4), (i, q) ≠ (j, p) →
      A[i][q] ≠ A[j][p] := by
  refine ⟨_, _, randM256_run env M w, fun i j hi hj q p hq hp hne => ?_⟩
  have key : ∀ i (hi : i < 256) q (hq : q < 4),
      (Vector.ofFn (n := 256) fun i => #v[(w.seeded.adv (8 * i)).word env 0, (w.seeded.adv (8 * i)).word env 1, (w.seeded.adv (8 * i)).word env 2, (w.seeded.adv (8 * i)).word env 3])[i][q] =
        (w.seeded.adv (8 * i)).word env q := by
    intro i hi q hq
    have : q = 0 ∨ q = 1 ∨ q = 2 ∨ q = 3 := by omega
    rw [Vector.getElem_ofFn]
    rcases this with rfl | rfl | rfl | rfl <;> rfl
  rw [key i hi q hq, key j hj p hp]
  have : i = j → q ≠ p := fun h h' => hne (by rw [h, h'])
  exact word_ne' env _ (by omega) (by omega) (by omega)

/-- C28: the rows of a random 256×256 matrix are pairwise different. -/
theorem C28_randM256 (env : Env) (M : M256) (w : World) : ∃ A w', randM256 env M w = .ok (A, w') ∧
    ∀ i j (hi : i < 256) (hj : j < 256), i ≠ j → A[i] ≠ A[j] := by
  obtain ⟨A, w', h, hA⟩ := C28_randM256_words env M w
  refine ⟨A, w', h, fun i j hi hj hij e => ?_⟩
  exact hA i j hi hj 0 0 (by omega) (by omega) (by simp [hij]) (by rw [e])

example : ∃ A w', randM32 exB32 exWorld = .ok (A, w') ∧ A[3] ≠ A[17] := by
  obtain ⟨A, w', h, hA⟩ := C28_randM32 exB32 exWorld
  exact ⟨A, w', h, hA 3 17 (by omega) (by omega) (by omega)⟩
-- For 8-bit rows equal rows do occur, so the property is about the generator and not a triviality.
example : ∃ A w', randM8 exB8 ⟨1, 0, 0, fun _ => 0, 0, []⟩ = .ok (A, w') ∧ ∃ i j, ∃ hi : i < 8, ∃ hj : j < 8,
    i ≠ j ∧ A[i] = A[j] := by
  refine ⟨_, _, randM8_run _ _, 5, 2, by omega, by omega, by omega, ?_⟩
  decide +kernel

end WB
