import Verif.Proof.RowOps
import Verif.Proof.M4riNaive

/-!
# The product of M4RI as a product of matrices over GF(2) (helper lemmas)
-/
namespace WB.m4w

open WB.cmp (Mem Mem2)

theorem bitF_xsum (n : Nat) (f : Nat → Bool) : bitF (xsum n f) = ∑ i : Fin n, bitF (f i) := by
  induction n with
  | zero => rfl
  | succ n ih => rw [xsum, bitF_xor, ih, Fin.sum_univ_castSucc]; rfl

theorem xsum_tail {n m : Nat} {f : Nat → Bool} (h : n ≤ m) (hf : ∀ i, n ≤ i → i < m → f i = false) : xsum m f = xsum n f := by
  obtain ⟨d, rfl⟩ := Nat.le.dest h
  rw [xsum_add, xsum_congr (g := fun _ => false) fun i hi => hf (n + i) (by omega) (by omega), xsum_false, Bool.xor_false]

theorem init_wf (r c : Nat) : (mzd_init r c).Wf := ⟨Nat.le_refl _, by unfold Mzd.width mzd_init; simp⟩

theorem init_bit (r c a b : Nat) : (mzd_init r c).bit a b = false := by unfold Mzd.bit Mzd.word mzd_init; simp

/-- Bits that are sums of products denote the product. -/
theorem rep_mul {MA MB D : Mzd} {r k c : Nat} {A : Matrix (Fin r) (Fin k) (ZMod 2)} {B : Matrix (Fin k) (Fin c) (ZMod 2)} (hA : Rep MA A) (hB : Rep MB B)
    (wD : D.Wf) (h1 : D.nrows = r) (h2 : D.ncols = c) (hD : Part MA MB D r k) : Rep D (A * B) ∧ D.Clean := by
  refine ⟨⟨wD, h1, h2, fun i j => ?_⟩, fun i _ j hj _ => ?_⟩
  · rw [hD, decide_eq_true ⟨i.2, by rw [hB.ncols]; exact j.2⟩, Bool.true_and, bitF_xsum, Matrix.mul_apply]
    refine Finset.sum_congr rfl fun l _ => ?_
    rw [bitF_and, hA.bit i l, hB.bit l j]
  · rw [hD, decide_eq_false fun h => ?_]
    · rfl
    · have := h.2
      rw [hB.ncols] at this
      omega

theorem mul_m4rm {tr : Mzd → C Mzd} (htr : Transposes tr) (e : MulEnv) {MA MB : Mzd} {r k c : Nat} {A : Matrix (Fin r) (Fin k) (ZMod 2)}
    {B : Matrix (Fin k) (Fin c) (ZMod 2)} (hk : 0 < k) (hc : 0 < c) (hf : c < 54 → Fits k c) (hA : Rep MA A) (cA : MA.Clean) (hB : Rep MB B) (cB : MB.Clean) :
    ∃ D, mzd_mul_m4rm tr e MA MB = .ok D ∧ Rep D (A * B) ∧ D.Clean := by
  show Ok (mzd_mul_m4rm tr e MA MB) _
  unfold mzd_mul_m4rm
  have hAB : MA.ncols = MB.nrows := by rw [hA.ncols, hB.nrows]
  have h0 : 0 < MB.ncols := by rw [hB.ncols]; exact hc
  rw [if_neg (by omega)]
  simp only []
  have fin : ∀ D, Sh (mzd_init MA.nrows MB.ncols) D ∧ Part MA MB D MA.nrows MA.ncols → Rep D (A * B) ∧ D.Clean := fun D h =>
    rep_mul hA hB (h.1.wf (init_wf _ _)) (by rw [h.1.nrows]; exact hA.nrows) (by rw [h.1.ncols]; exact hB.ncols) (by rw [← hA.nrows, ← hA.ncols]; exact h.2)
  split
  · unfold mzd_mul_naive
    rw [if_neg (by simp [mzd_init])]
    split
    case isTrue h54 =>
      obtain ⟨N, hN, rN, _⟩ := htr hk hc (hf (by rw [← hB.ncols]; exact h54)) hB cB
      rw [hN, C_ok_bind]
      have hwN : N.width = MA.width := by unfold Mzd.width; rw [rN.ncols, hA.ncols]
      refine (mul_naive hA.wf rN.wf hwN (width_pos (by rw [hA.ncols]; exact hk)) (init_wf _ _) rfl (by rw [rN.nrows, ← hB.ncols]; rfl) (by rw [rN.nrows]; exact hc)
        (init_bit _ _)).mono ?_
      intro D ⟨sh, hD⟩
      refine fin D ⟨sh, fun a b => ?_⟩
      rw [hD, rN.nrows, hB.ncols]
      by_cases hab : a < MA.nrows ∧ b < c
      · rw [decide_eq_true hab, Bool.true_and, Bool.true_and]
        unfold dot
        rw [xsum_tail (n := MA.ncols) (by unfold Mzd.width; omega) fun i h1 h2 => by rw [cA a hab.1 i h1 h2]; rfl]
        refine xsum_congr fun l hl => ?_
        have e1 := rN.bit ⟨b, hab.2⟩ ⟨l, by rw [← hA.ncols]; exact hl⟩
        have e2 := hB.bit ⟨l, by rw [← hA.ncols]; exact hl⟩ ⟨b, hab.2⟩
        have e3 : N.bit b l = MB.bit l b := bitF_inj.1 (e1.trans e2.symm)
        rw [e3]
      · rw [decide_eq_false hab]; rfl
    case isFalse => exact (mul_va hA.wf hB.wf hAB h0 (init_wf _ _) rfl rfl (init_bit _ _)).mono fin
  · exact (mul_tables hA.wf hB.wf hAB h0 (init_wf _ _) rfl rfl (init_bit _ _)).mono fin

end WB.m4w
