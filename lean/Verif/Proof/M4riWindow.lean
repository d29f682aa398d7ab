import Verif.Model.M4riStrassen
import Verif.Proof.M4riMove
import Verif.Proof.M4riProd

/-!
# Windows of M4RI's matrices and products that are written into them (helper lemmas)
-/
namespace WB.m4w

open WB.cmp (Mem Mem2)

/-- The `r × c` matrix of the bits from row `x` and column `y` on. -/
def blk (M : Mzd) (x y r c : Nat) : Matrix (Fin r) (Fin c) (ZMod 2) := fun i j => bitF (M.bit (x + i) (y + j))

/-- `N` is `M` with the first `r` rows and `c` columns replaced by `X`. -/
structure Wr (M N : Mzd) {r c : Nat} (X : Matrix (Fin r) (Fin c) (ZMod 2)) : Prop where
  sh : Sh M N
  mat : ∀ (i : Fin r) (j : Fin c), bitF (N.bit i j) = X i j
  out : ∀ a b, ¬ (a < r ∧ b < c) → N.bit a b = M.bit a b

theorem Wr.rep {M N : Mzd} {r c : Nat} {X : Matrix (Fin r) (Fin c) (ZMod 2)} (h : Wr M N X) (w : M.Wf) (hr : M.nrows = r) (hc : M.ncols = c) : Rep N X :=
  ⟨h.sh.wf w, by rw [h.sh.nrows, hr], by rw [h.sh.ncols, hc], h.mat⟩

theorem Wr.clean {M N : Mzd} {r c : Nat} {X : Matrix (Fin r) (Fin c) (ZMod 2)} (h : Wr M N X) (hc : M.ncols = c) (cl : M.Clean) : N.Clean := by
  intro i hi j h1 h2
  rw [h.sh.ncols] at h1
  rw [h.sh.width] at h2
  rw [h.sh.nrows] at hi
  rw [h.out i j (by omega)]
  exact cl i hi j h1 h2

theorem rep_blk {M : Mzd} (w : M.Wf) : Rep M (blk M 0 0 M.nrows M.ncols) := ⟨w, rfl, rfl, fun i j => by unfold blk; rw [Nat.zero_add, Nat.zero_add]⟩

theorem init_clean (r c : Nat) : (mzd_init r c).Clean := fun _ _ _ _ _ => init_bit _ _ _ _

/-! ## Windows -/

variable {M : Mzd} {x y x' y' : Nat}

theorem window_wf (w : M.Wf) (hy : y % 64 = 0) (hle : y ≤ y') (hx : x ≤ x') (hx' : x' ≤ M.nrows) (hy' : y' ≤ M.ncols) : (mzd_window M x y x' y').Wf := by
  have h1 := w.rows
  have h2 := w.cols
  refine ⟨?_, ?_⟩
  · show min (x' - x) (M.nrows - x) ≤ M.mem.rows - x
    omega
  · unfold Mzd.width at *
    show M.off + y / 64 + (y' - y + 63) / 64 ≤ M.mem.cols
    omega

theorem window_bit (M : Mzd) (hy : y % 64 = 0) (a b : Nat) : (mzd_window M x y x' y').bit a b = M.bit (x + a) (y + b) := by
  unfold Mzd.bit Mzd.word mzd_window
  simp only []
  rw [show M.off + y / 64 + b / 64 = M.off + (y + b) / 64 by omega, show (y + b) % 64 = b % 64 by omega]

theorem window_nrows (hx' : x' ≤ M.nrows) : (mzd_window M x y x' y').nrows = x' - x := by
  show min (x' - x) (M.nrows - x) = x' - x
  omega

theorem window_rep (w : M.Wf) (hy : y % 64 = 0) (hle : y ≤ y') (hx : x ≤ x') (hx' : x' ≤ M.nrows) (hy' : y' ≤ M.ncols) {r c : Nat} (hr : x' - x = r) (hc : y' - y = c) :
    Rep (mzd_window M x y x' y') (blk M x y r c) := by
  refine ⟨window_wf w hy hle hx hx' hy', ?_, hc, fun i j => ?_⟩
  · rw [window_nrows hx', hr]
  · rw [window_bit M hy]
    rfl

theorem window_clean (cl : M.Clean) (hy : y % 64 = 0) (hle : y ≤ y') (hx : x ≤ x') (hx' : x' ≤ M.nrows) (h : y' = M.ncols ∨ (y' - y) % 64 = 0) :
    (mzd_window M x y x' y').Clean := by
  intro i hi j h1 h2
  rw [window_nrows hx'] at hi
  have h3 : y' - y ≤ j := h1
  have h4 : j < 64 * ((y' - y + 63) / 64) := h2
  rcases h with h | h
  · rw [window_bit M hy]
    refine cl _ (by omega) _ (by omega) ?_
    unfold Mzd.width
    omega
  · omega

theorem onWindow_spec {f : Mzd → C Mzd} (w : M.Wf) (hy : y % 64 = 0) {r c : Nat} {Y : Matrix (Fin r) (Fin c) (ZMod 2)}
    (hf : Ok (f (mzd_window M x y x' y')) fun N => Wr (mzd_window M x y x' y') N Y) :
    Ok (onWindow M x y x' y' f) fun N => Sh M N ∧ (∀ (i : Fin r) (j : Fin c), bitF (N.bit (x + i) (y + j)) = Y i j) ∧
      ∀ a b, ¬ (x ≤ a ∧ a < x + r ∧ y ≤ b ∧ b < y + c) → N.bit a b = M.bit a b := by
  unfold onWindow
  refine Ok.bind hf fun N h => ?_
  rw [Ok.pure_iff]
  have hoff : N.off = M.off + y / 64 := h.sh.off
  have hbit : ∀ a b, (writeBack M x N).bit a b = if x ≤ a ∧ y ≤ b then N.bit (a - x) (b - y) else M.bit a b := by
    intro a b
    by_cases ha : x ≤ a
    · by_cases hb : y ≤ b
      · rw [if_pos ⟨ha, hb⟩]
        unfold Mzd.bit Mzd.word writeBack
        simp only []
        rw [if_pos ha, hoff, show M.off + y / 64 + (b - y) / 64 = M.off + b / 64 by omega, show (b - y) % 64 = b % 64 by omega]
      · rw [if_neg (by omega)]
        have := h.sh.before (a - x) (M.off + b / 64) (by
          show M.off + b / 64 < M.off + y / 64
          omega)
        unfold Mzd.bit Mzd.word writeBack
        simp only []
        rw [if_pos ha, this]
        show (M.mem.cell (x + (a - x)) (M.off + b / 64)).getLsbD _ = _
        rw [show x + (a - x) = a by omega]
    · rw [if_neg (by omega)]
      unfold Mzd.bit Mzd.word writeBack
      simp only []
      rw [if_neg ha]
  refine ⟨⟨rfl, rfl, rfl, rfl, rfl, fun a b hb => ?_⟩, fun i j => ?_, fun a b hab => ?_⟩
  · show (if x ≤ a then N.mem.cell (a - x) b else M.mem.cell a b) = _
    split
    · rw [h.sh.before (a - x) b (by show b < M.off + y / 64; omega)]
      show M.mem.cell (x + (a - x)) b = _
      rw [show x + (a - x) = a by omega]
    · rfl
  · rw [hbit, if_pos ⟨by omega, by omega⟩, show x + i.val - x = i by omega, show y + j.val - y = j by omega]
    exact h.mat i j
  · rw [hbit]
    split
    · rename_i h'
      rw [h.out _ _ (by omega), window_bit M hy, show x + (a - x) = a by omega, show y + (b - y) = b by omega]
    · rfl

/-! ## Sums, copies and products -/

theorem add_wr {D MA MB : Mzd} {r c : Nat} {A B : Matrix (Fin r) (Fin c) (ZMod 2)} (wD : D.Wf) (hr : D.nrows = r) (hc : D.ncols = c) (hA : Rep MA A) (hB : Rep MB B) :
    Ok (_mzd_add D MA MB) fun N => Wr D N (A + B) := by
  refine (add_spec wD hA.wf hB.wf (by rw [hA.nrows, hr]) (by rw [hB.nrows, hr]) (by rw [hA.ncols, hc]) (by rw [hB.ncols, hc])).mono ?_
  intro N ⟨sh, hN⟩
  refine ⟨sh, fun i j => ?_, fun a b hab => ?_⟩
  · rw [hN, if_pos ⟨by rw [hr]; exact i.2, by rw [hc]; exact j.2⟩, bitF_xor, hA.bit, hB.bit]
    rfl
  · rw [hN, if_neg (by rw [hr, hc]; exact hab)]

theorem copy_wr {D MA : Mzd} {r c : Nat} {A : Matrix (Fin r) (Fin c) (ZMod 2)} (wD : D.Wf) (h0 : 0 < c) (hr : D.nrows = r) (hc : D.ncols = c) (hA : Rep MA A) :
    Ok (mzd_copy D MA) fun N => Wr D N A := by
  refine (copy wD hA.wf (by rw [hA.ncols]; exact h0) (by rw [hA.nrows, hr]) (by rw [hA.ncols, hc])).mono ?_
  intro N ⟨sh, hN⟩
  refine ⟨sh, fun i j => ?_, fun a b hab => ?_⟩
  · rw [hN, if_pos ⟨by rw [hA.nrows]; exact i.2, by rw [hA.ncols]; exact j.2⟩, hA.bit]
  · rw [hN, if_neg (by rw [hA.nrows, hA.ncols]; exact hab)]

theorem copy_new {MA : Mzd} {r c : Nat} {A : Matrix (Fin r) (Fin c) (ZMod 2)} (h0 : 0 < c) (hA : Rep MA A) :
    Ok (mzd_copy_new MA) fun N => Rep N A ∧ N.Clean := by
  unfold mzd_copy_new
  refine (copy_wr (init_wf _ _) h0 hA.nrows hA.ncols hA).mono fun N h => ⟨h.rep (init_wf _ _) hA.nrows hA.ncols, h.clean hA.ncols (init_clean _ _)⟩

theorem bitF_mul_sum {MA MB : Mzd} {r k c : Nat} {A : Matrix (Fin r) (Fin k) (ZMod 2)} {B : Matrix (Fin k) (Fin c) (ZMod 2)} (hA : Rep MA A) (hB : Rep MB B)
    (i : Fin r) (j : Fin c) : bitF (xsum k fun l => MA.bit i l && MB.bit l j) = (A * B) i j := by
  rw [bitF_xsum, Matrix.mul_apply]
  refine Finset.sum_congr rfl fun l _ => ?_
  rw [bitF_and, hA.bit i l, hB.bit l j]

/-- What is there before the product is added. -/
theorem acc_wr {MA MB C0 C1 D : Mzd} {r k c : Nat} {A : Matrix (Fin r) (Fin k) (ZMod 2)} {B : Matrix (Fin k) (Fin c) (ZMod 2)} {X : Matrix (Fin r) (Fin c) (ZMod 2)}
    (hA : Rep MA A) (hB : Rep MB B) (h1 : Wr C0 C1 X) (sh : Sh C1 D)
    (h : PartAcc MA MB C1 D MA.nrows MA.ncols) : Wr C0 D (X + A * B) := by
  refine ⟨h1.sh.trans sh, fun i j => ?_, fun a b hab => ?_⟩
  · rw [h, decide_eq_true ⟨by rw [hA.nrows]; exact i.2, by rw [hB.ncols]; exact j.2⟩, Bool.true_and, bitF_xor, h1.mat, hA.ncols, bitF_mul_sum hA hB]
    rfl
  · rw [h, decide_eq_false (by rw [hA.nrows, hB.ncols]; exact hab), Bool.false_and, Bool.xor_false, h1.out a b hab]

theorem Wr.self (M : Mzd) (r c : Nat) : Wr M M (blk M 0 0 r c) := ⟨Sh.refl M, fun i j => by unfold blk; rw [Nat.zero_add, Nat.zero_add], fun _ _ _ => rfl⟩

theorem zero_wr {D : Mzd} {r c : Nat} (h0 : 0 < c) (wD : D.Wf) (hr : D.nrows = r) (hc : D.ncols = c) : Ok (mzd_set_ui D 0) fun N => Wr D N (0 : Matrix (Fin r) (Fin c) (ZMod 2)) := by
  refine (set_zero wD (by rw [hc]; exact h0)).mono fun N ⟨sh, hN⟩ => ⟨sh, fun i j => ?_, fun a b hab => ?_⟩
  · rw [hN, if_pos ⟨by rw [hr]; exact i.2, by rw [hc]; exact j.2⟩]
    rfl
  · rw [hN, if_neg (by rw [hr, hc]; exact hab)]

theorem fits_small {k c : Nat} (hk : k ≤ 2 ^ 24) (hc : c < 54) : Fits k c := by
  refine ⟨by omega, by omega, ?_, ?_⟩
  · have := Nat.mul_le_mul hk (show c + 127 ≤ 181 by omega)
    omega
  · have := Nat.mul_le_mul (show c ≤ 54 by omega) (show k + 127 ≤ 2 ^ 24 + 127 by omega)
    omega

theorem addmul_naive_wr {tr : Mzd → C Mzd} (htr : Transposes tr) {MC C1 MA MB : Mzd} {r k c : Nat} {A : Matrix (Fin r) (Fin k) (ZMod 2)} {B : Matrix (Fin k) (Fin c) (ZMod 2)}
    {X : Matrix (Fin r) (Fin c) (ZMod 2)} (hk : 0 < k) (hc : 0 < c) (hk' : k ≤ 2 ^ 24) (h54 : c < 54) (wC : MC.Wf) (hr : MC.nrows = r) (hcc : MC.ncols = c) (hA : Rep MA A)
    (cA : MA.Clean) (hB : Rep MB B) (cB : MB.Clean) (h1 : Wr MC C1 X) : ∃ N, tr MB = .ok N ∧ Rep N B.transpose ∧ Ok (_mzd_addmul_naive C1 MA N) fun D => Wr MC D (X + A * B) := by
  obtain ⟨N, hN, rN, _⟩ := htr hk hc (fits_small hk' h54) hB cB
  refine ⟨N, hN, rN, ?_⟩
  have hwN : N.width = MA.width := by unfold Mzd.width; rw [rN.ncols, hA.ncols]
  refine (addmul_naive hA.wf rN.wf hwN (width_pos (by rw [hA.ncols]; exact hk)) (h1.sh.wf wC) (by rw [h1.sh.nrows, hr, hA.nrows])
    (by rw [h1.sh.ncols, hcc, rN.nrows])).mono ?_
  intro D ⟨sh, hD⟩
  refine acc_wr hA hB h1 sh fun a b => ?_
  rw [hD, rN.nrows, hB.ncols]
  by_cases hab : a < MA.nrows ∧ b < c
  · rw [decide_eq_true hab, Bool.true_and, Bool.true_and]
    congr 1
    unfold dot
    rw [xsum_tail (n := MA.ncols) (by unfold Mzd.width; omega) fun i h1 h2 => by rw [cA a hab.1 i h1 h2]; rfl]
    refine xsum_congr fun l hl => ?_
    have e1 := rN.bit ⟨b, hab.2⟩ ⟨l, by rw [← hA.ncols]; exact hl⟩
    have e2 := hB.bit ⟨l, by rw [← hA.ncols]; exact hl⟩ ⟨b, hab.2⟩
    have e3 : N.bit b l = MB.bit l b := bitF_inj.1 (e1.trans e2.symm)
    rw [e3]
  · rw [decide_eq_false hab]
    rfl

theorem m4rm_wr {tr : Mzd → C Mzd} (htr : Transposes tr) (e : MulEnv) (clear : Bool) {MC MA MB : Mzd} {r k c : Nat} {A : Matrix (Fin r) (Fin k) (ZMod 2)}
    {B : Matrix (Fin k) (Fin c) (ZMod 2)} (hk : 0 < k) (hc : 0 < c) (hk' : k ≤ 2 ^ 24) (wC : MC.Wf) (hr : MC.nrows = r) (hcc : MC.ncols = c) (hA : Rep MA A) (cA : MA.Clean)
    (hB : Rep MB B) (cB : MB.Clean) : Ok (_mzd_mul_m4rm tr e clear MC MA MB) fun N => Wr MC N ((if clear then 0 else blk MC 0 0 r c) + A * B) := by
  have hAB : MA.ncols = MB.nrows := by rw [hA.ncols, hB.nrows]
  have h0 : 0 < MB.ncols := by rw [hB.ncols]; exact hc
  have hsz : ¬ (MC.nrows ≠ MA.nrows ∨ MC.ncols ≠ MB.ncols) := by rw [hr, hcc, hA.nrows, hB.ncols]; simp
  have tab : ∀ {C1 : Mzd} {X}, Wr MC C1 X → Ok (addmul_m4rm_tables e.junk e.align.toNat e.k0 C1 MA MB) fun N => Wr MC N (X + A * B) := fun h1 =>
    (addmul_tables hA.wf hB.wf hAB h0 (h1.sh.wf wC) (by rw [h1.sh.nrows, hr, hA.nrows]) (by rw [h1.sh.ncols, hcc, hB.ncols])).mono fun D ⟨sh, hD⟩ =>
      acc_wr hA hB h1 sh hD
  have va : ∀ {C1 : Mzd} {X}, Wr MC C1 X → Ok (mzd_addmul_va C1 MA MB) fun N => Wr MC N (X + A * B) := fun h1 =>
    (addmul_va hA.wf hB.wf hAB h0 (h1.sh.wf wC) (by rw [h1.sh.nrows, hr, hA.nrows]) (by rw [h1.sh.ncols, hcc, hB.ncols])).mono fun D ⟨sh, hD⟩ =>
      acc_wr hA hB h1 sh hD
  unfold _mzd_mul_m4rm
  split
  · cases clear
    · rw [if_neg (by simp), if_neg (by simp)]
      unfold mzd_addmul_naive
      rw [if_neg hsz]
      split
      case isTrue h54 =>
        obtain ⟨N, hN, _, h⟩ := addmul_naive_wr htr hk hc hk' (by rw [← hB.ncols]; exact h54) wC hr hcc hA cA hB cB (Wr.self MC r c)
        rw [hN, C_ok_bind]
        exact h
      case isFalse => exact va (Wr.self MC r c)
    · rw [if_pos rfl, if_pos rfl]
      unfold mzd_mul_naive
      rw [if_neg hsz]
      split
      case isTrue h54 =>
        have hz : Ok (forUp 0 MC.nrows MC fun i C' => do
            let C' ← forUp 0 (C'.width - 1) C' fun j C' => C'.put i j 0#64
            C'.put i (C'.width - 1) ((← C'.get i (C'.width - 1)) &&& ~~~C'.high)) fun N => Wr MC N (0 : Matrix (Fin r) (Fin c) (ZMod 2)) := by
          refine (clear_all wC (by rw [hcc]; exact hc)).mono fun N ⟨sh, hN⟩ => ⟨sh, fun i j => ?_, fun a b hab => ?_⟩
          · rw [hN, if_pos ⟨by rw [hr]; exact i.2, by rw [hcc]; exact j.2⟩]
            rfl
          · rw [hN, if_neg (by rw [hr, hcc]; exact hab)]
        obtain ⟨N, hN, _, _⟩ := addmul_naive_wr htr hk hc hk' (by rw [← hB.ncols]; exact h54) wC hr hcc hA cA hB cB (Wr.self MC r c)
        rw [hN, C_ok_bind]
        unfold _mzd_mul_naive
        refine Ok.bind hz fun C1 h1 => ?_
        obtain ⟨N', hN', _, h⟩ := addmul_naive_wr htr hk hc hk' (by rw [← hB.ncols]; exact h54) wC hr hcc hA cA hB cB h1
        rw [hN] at hN'
        injection hN' with hN'
        rw [hN']
        exact h
      case isFalse =>
        unfold mzd_mul_va
        exact Ok.bind (zero_wr hc wC hr hcc) fun C1 h1 => va h1
  · cases clear
    · rw [if_neg (by simp), if_neg (by simp)]
      exact tab (Wr.self MC r c)
    · rw [if_pos rfl, if_pos rfl]
      unfold mul_m4rm_tables
      exact Ok.bind (zero_wr hc wC hr hcc) fun C1 h1 => tab h1

end WB.m4w
