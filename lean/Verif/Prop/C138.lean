import Verif.Proof.M4riRandomMore

/-!
# C138 — random bits, random words with `_MSC_VER` and random matrices from a callback in M4RI (`m4ri_coin_flip`, `m4ri_random_word`, `mzd_randomize_custom`)
-/
namespace WB.m4w

/-- C138, full statement: `m4ri_coin_flip` returns 0 for as many results of `rand`, which are the numbers from 0 to `RAND_MAX`, as it returns 1; the words with `_MSC_VER` are
distributed evenly; and the bits of a matrix are those of the words that the callback returns. -/
def C138_statement : Prop :=
  (∀ R : Nat, Nat.card {r : Fin (R + 1) // m4ri_coin_flip R r = 0} = Nat.card {r : Fin (R + 1) // m4ri_coin_flip R r = 1}) ∧
  (∀ w : Word, Nat.card {d : Fin 8 → BitVec 15 // m4ri_random_word_msc (mscSeq d) = w} = 2 ^ 56) ∧
  ∀ {σ : Type} {r c : Nat} {M : Mzd} {A : Matrix (Fin r) (Fin c) (ZMod 2)}, Rep M A → ∀ (rc : σ → Word × σ) (st : Nat → σ), (∀ n, st (n + 1) = (rc (st n)).2) →
    ∃ N d, mzd_randomize_custom M rc (st 0) = .ok (N, d) ∧ Rep N (Matrix.of fun (i : Fin r) (j : Fin c) => bitF ((rc (st (i * ((c + 63) / 64) + j / 64))).1.getLsbD (j % 64)))

/-- C138, how it fails: for no value of `RAND_MAX` is the bit evenly distributed.  0 comes for `RAND_MAX / 2` results of `rand`, 1 for all others. -/
theorem C138_coin_violated (R : Nat) : Nat.card {r : Fin (R + 1) // m4ri_coin_flip R r = 0} ≠ Nat.card {r : Fin (R + 1) // m4ri_coin_flip R r = 1} := by
  rw [coin_zero, coin_one]; omega

/-- C138, what holds: if `RAND_MAX` is odd, as it is everywhere, 1 comes for exactly two results of `rand` more than 0; otherwise for one more. -/
theorem C138_coin_partial (R : Nat) : Nat.card {r : Fin (R + 1) // m4ri_coin_flip R r = 1} = Nat.card {r : Fin (R + 1) // m4ri_coin_flip R r = 0} + if R % 2 = 1 then 2 else 1 := by
  rw [coin_zero, coin_one]; split <;> omega

/-- C138: the result is 0 or 1. -/
theorem C138_coin_bit (R r : Nat) : m4ri_coin_flip R r = 0 ∨ m4ri_coin_flip R r = 1 := by
  unfold m4ri_coin_flip; split <;> simp

/-- C138: with `_MSC_VER` every word is the result of `m4ri_random_word` for the same number of results of `rand`, namely 2^56 of the 2^120. -/
theorem C138_word (w : Word) : Nat.card {d : Fin 8 → BitVec 15 // m4ri_random_word_msc (mscSeq d) = w} = 2 ^ 56 := by
  have h' : Nat.card {d : Fin 8 → BitVec 15 // m4ri_random_word_msc (mscSeq d) = w} * 2 ^ 64 = 2 ^ 56 * 2 ^ 64 := (msc_fibre w).trans (by norm_num)
  exact Nat.eq_of_mul_eq_mul_right (by decide) h'

/-- C138: `mzd_randomize_custom` calls the callback once for each word of the matrix, in the order of the words; entry `(i, j)` is bit `j % 64` of what call number `i * width + j / 64`
returns.  `st n` is what `data` points to after `n` calls.  The unused bits are left as they are. -/
theorem C138_custom_partial {σ : Type} {r c : Nat} {M : Mzd} {A : Matrix (Fin r) (Fin c) (ZMod 2)} (hc : 0 < c) (hM : Rep M A) (rc : σ → Word × σ) {st : Nat → σ}
    (hst : ∀ n, st (n + 1) = (rc (st n)).2) :
    ∃ N, mzd_randomize_custom M rc (st 0) = .ok (N, st (r * ((c + 63) / 64))) ∧
      Rep N (Matrix.of fun (i : Fin r) (j : Fin c) => bitF ((rc (st (i * ((c + 63) / 64) + j / 64))).1.getLsbD (j % 64))) ∧ ∀ a k, c ≤ k → N.bit a k = M.bit a k := by
  obtain ⟨⟨N, d⟩, e, hd, sh, hN⟩ := custom_spec hM.wf (by rw [hM.ncols]; exact hc) rc (st 0) st rfl hst
  have hw : M.width = (c + 63) / 64 := by unfold Mzd.width; rw [hM.ncols]
  dsimp only at hd sh hN
  rw [hw, hM.ncols, hM.nrows] at hN
  rw [hw, hM.nrows] at hd
  subst hd
  refine ⟨N, e, ⟨sh.wf hM.wf, sh.nrows.trans hM.nrows, sh.ncols.trans hM.ncols, fun i j => ?_⟩, fun a k hk => ?_⟩
  · rw [hN, if_pos ⟨i.2, j.2⟩]; rfl
  · rw [hN, if_neg (by omega)]

/-- C138, how it fails: without columns, word -1 of the first row is used. -/
theorem C138_empty_violated {σ : Type} {r : Nat} (hr : 0 < r) (rc : σ → Word × σ) (data : σ) : mzd_randomize_custom (mzd_init r 0) rc data = .error .oob := by
  unfold mzd_randomize_custom
  have hg : ∀ j, (mzd_init r 0).get 0 j = .error .oob := fun j => if_neg (show ¬ (0 < r ∧ 0 + j < 0) by omega)
  refine forUp_first hr ?_
  rw [show (mzd_init r 0).width - 1 = 0 by simp [Mzd.width, mzd_init], forUp_none (le_refl 0)]
  show (do let a ← (mzd_init r 0).get 0 0; pure (← (mzd_init r 0).put 0 0 (a ^^^ ((a ^^^ (rc data).1) &&& (mzd_init r 0).high)), (rc data).2)) = _
  rw [hg]
  rfl

theorem C138_violated : ¬ C138_statement := fun h => C138_coin_violated 32767 (h.1 32767)

/-! ## Examples -/

example : Nat.card {r : Fin 2147483648 // m4ri_coin_flip 2147483647 r = 0} = 1073741823 ∧ Nat.card {r : Fin 2147483648 // m4ri_coin_flip 2147483647 r = 1} = 1073741825 :=
  ⟨coin_zero 2147483647, coin_one 2147483647⟩
example : m4ri_coin_flip 32767 16382 = 0 ∧ m4ri_coin_flip 32767 16383 = 1 := by decide
example : Nat.card {d : Fin 8 → BitVec 15 // m4ri_random_word_msc (mscSeq d) = 0x0123456789abcdef#64} = 2 ^ 56 := C138_word _
/-- A callback that counts: 3 rows of 70 columns take six words. -/
example : ∃ N, mzd_randomize_custom (mzd_init 3 70) (fun n : Nat => (BitVec.ofNat 64 n, n + 1)) 5 = .ok (N, 11) := by
  obtain ⟨N, e, _⟩ := C138_custom_partial (r := 3) (c := 70) (M := mzd_init 3 70) (A := fun i j => bitF ((mzd_init 3 70).bit i j)) (by decide) ⟨init_wf _ _, rfl, rfl, fun _ _ => rfl⟩
    (fun n : Nat => (BitVec.ofNat 64 n, n + 1)) (st := fun n => n + 5) (fun n => by show n + 1 + 5 = n + 5 + 1; omega)
  exact ⟨N, e⟩
example : mzd_randomize_custom (mzd_init 3 0) (fun n : Nat => (BitVec.ofNat 64 n, n + 1)) 5 = .error .oob := C138_empty_violated (by decide) _ _

end WB.m4w
