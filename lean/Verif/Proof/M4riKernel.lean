import Verif.Proof.M4riSolve

/-!
# The kernel from a PLUQ factorisation (helper lemmas)
-/
namespace WB.m4w

open WB.cmp (Mem Mem2)

theorem xor_bits_ok {M : Mzd} (w : M.Wf) {i t n : Nat} (hi : i < M.nrows) (ht : 64 * t < M.ncols) (hn : n ≤ 64) (v : Word) :
    Ok (mzd_xor_bits M i (64 * t) n v) fun N => Sh M N ∧ ∀ a b, N.bit a b = (M.bit a b ^^ (decide (a = i ∧ b / 64 = t) && v.getLsbD (b % 64))) := by
  unfold mzd_xor_bits
  have hat := w.at (i := i) (j := t) hi (by unfold Mzd.width; omega)
  have e1 : 64 * t / 64 = t := by omega
  have e2 : 64 * t % 64 = 0 := by omega
  simp only [e1, e2]
  rw [get_eq hat, C_ok_bind, put_eq _ hat, C_ok_bind, if_neg (by omega), Ok.pure_iff]
  refine ⟨Sh.set _ _ _ _, fun a b => ?_⟩
  rw [bit_set]
  by_cases h : a = i ∧ b / 64 = t
  · rw [if_pos h, decide_eq_true h, Bool.true_and, BitVec.getLsbD_xor, BitVec.shiftLeft_zero]
    unfold Mzd.bit
    rw [h.1, h.2]
  · rw [if_neg h, decide_eq_false h, Bool.false_and, Bool.xor_false]

theorem fill_kernel_ok {A W : Mzd} {r : Nat} (wA : A.Wf) (wW : W.Wf) (hr : r ≤ A.nrows) (hW : W.nrows = r) (hc : r + W.ncols = A.ncols) :
    Ok (fillKernel A r W) fun N => Sh W N ∧ ∀ a b, N.bit a b = (W.bit a b ^^ (decide (a < r ∧ b < W.ncols) && A.bit a (r + b))) := by
  unfold fillKernel
  refine Ok.forUp (P := fun i N => Sh W N ∧ ∀ a b, N.bit a b = (W.bit a b ^^ (decide (a < i ∧ b < W.ncols) && A.bit a (r + b)))) (Nat.zero_le _)
    ⟨Sh.refl W, fun a b => by rw [decide_eq_false (by omega), Bool.false_and, Bool.xor_false]⟩ ?_ (fun N h => h)
  intro i N _ hi ⟨sh, hN⟩
  have hw : (N.ncols + 63) / 64 = (W.ncols + 63) / 64 := by rw [sh.ncols]
  refine Ok.forUp (P := fun t D => Sh W D ∧ ∀ a b, D.bit a b = (N.bit a b ^^ (decide (a = i ∧ b / 64 < t ∧ b < W.ncols) && A.bit a (r + b)))) (Nat.zero_le _)
    ⟨sh, fun a b => by rw [decide_eq_false (by omega), Bool.false_and, Bool.xor_false]⟩ ?_ ?_
  · intro t D _ ht ⟨sh', hD⟩
    rw [sh'.ncols]
    obtain ⟨v, ev, hv⟩ := read_bits wA (x := i) (y := r + 64 * t) (n := min 64 (W.ncols - 64 * t)) (by omega) (by omega) (by omega) (lt_width (by omega))
    rw [ev, C_ok_bind]
    refine (xor_bits_ok (sh'.wf wW) (i := i) (t := t) (by rw [sh'.nrows, hW]; exact hi) (by rw [sh'.ncols]; omega) (by omega) v).mono ?_
    intro E ⟨sh'', hE⟩
    refine ⟨sh'.trans sh'', fun a b => ?_⟩
    rw [hE, hD, hv]
    by_cases hx : a = i ∧ b / 64 = t
    · rw [decide_eq_true hx, Bool.true_and, decide_eq_false (show ¬ (a = i ∧ b / 64 < t ∧ b < W.ncols) by omega), Bool.false_and, Bool.xor_false, show r + 64 * t + b % 64 = r + b by omega, hx.1]
      congr 2
      exact decide_eq_decide.2 (by omega)
    · rw [decide_eq_false hx, Bool.false_and, Bool.xor_false]
      congr 2
      exact decide_eq_decide.2 (by omega)
  · intro D ⟨sh', hD⟩
    refine ⟨sh', fun a b => ?_⟩
    rw [hD, hN]
    by_cases ha : a = i
    · rw [decide_eq_false (show ¬ (a < i ∧ b < W.ncols) by omega), Bool.false_and, Bool.xor_false]
      congr 2
      exact decide_eq_decide.2 (by omega)
    · rw [decide_eq_false (show ¬ (a = i ∧ b / 64 < (N.ncols + 63) / 64 ∧ b < W.ncols) by omega), Bool.false_and, Bool.xor_false]
      congr 2
      exact decide_eq_decide.2 (by omega)

/-- The ones below. -/
theorem ones_ok {R : Mzd} (w : R.Wf) {k d : Nat} (hr : R.nrows = k + d) (hd : R.ncols = d) :
    Ok (forUp 0 R.ncols R fun i R => mzd_write_bit R (k + i) i true) fun N => Sh R N ∧ ∀ a b, N.bit a b = if k ≤ a ∧ a = k + b ∧ b < d then true else R.bit a b := by
  refine Ok.forUp (P := fun i N => Sh R N ∧ ∀ a b, N.bit a b = if k ≤ a ∧ a = k + b ∧ b < i then true else R.bit a b) (Nat.zero_le _)
    ⟨Sh.refl R, fun a b => by rw [if_neg (by omega)]⟩ ?_ (fun N h => by rw [hd] at h; exact h)
  intro i N _ hi ⟨sh, hN⟩
  refine (write_bit (sh.wf w) (i := k + i) (j := i) (by rw [sh.nrows]; omega) (by rw [sh.ncols]; exact hi) true).mono ?_
  intro D ⟨sh', hD⟩
  refine ⟨sh.trans sh', fun a b => ?_⟩
  rw [hD, hN]
  by_cases hx : a = k + i ∧ b = i
  · rw [if_pos hx, if_pos (by omega)]
  · rw [if_neg hx]
    exact if_congr (by omega) rfl rfl

end WB.m4w
