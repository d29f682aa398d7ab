import Verif.Proof.M4riStrassen

/-!
# The product that is added, after Strassen (helper lemmas)
-/
namespace WB.m4w

open WB.cmp (Mem Mem2)

theorem blk_rep {M : Mzd} {r c : Nat} {X : Matrix (Fin r) (Fin c) (ZMod 2)} (h : Rep M X) : blk M 0 0 r c = X := by
  funext i j
  unfold blk
  rw [Nat.zero_add, Nat.zero_add, h.bit]

theorem addmul_m4rm_adds {tr : Mzd → C Mzd} (htr : Transposes tr) (e : MulEnv) {r k c : Nat} (hk : 0 < k) (hk' : k ≤ 2 ^ 24) : AddsTo (mzd_addmul_m4rm tr e) r k c := by
  intro MC MA MB X A B hX hA cA hB cB
  unfold mzd_addmul_m4rm
  rw [hX.nrows, hX.ncols]
  by_cases hz : c = 0 ∨ r = 0
  · rw [if_pos hz, Ok.pure_iff]
    exact empty_wr _ hz.symm
  · rw [if_neg hz, if_neg (by rw [hA.ncols, hB.nrows]; simp), if_neg (by rw [hA.nrows, hB.ncols]; simp)]
    have h := m4rm_wr htr e false hk (by omega) hk' hX.wf hX.nrows hX.ncols hA cA hB cB
    rw [if_neg (by simp), blk_rep hX] at h
    exact h

section

variable {tr : Mzd → C Mzd} {MC MA MB : Mzd} {m k n P K Q : Nat} {A : Matrix (Fin m) (Fin k) (ZMod 2)} {B : Matrix (Fin k) (Fin n) (ZMod 2)}

/-- What is added in one window. -/
theorem add_window (htr : Transposes tr) (e : MulEnv) {x y x' y' s t : Nat} {FA FB : Mzd} (wC : MC.Wf) (hy : y % 64 = 0) (hx' : x ≤ x') (hy' : y ≤ y') (hr : x' ≤ MC.nrows)
    (hc : y' ≤ MC.ncols) (hst : s < t) (ht : t ≤ 2 ^ 24) (rA : Rep FA (blk MA x s (x' - x) (t - s))) (cA : FA.Clean) (rB : Rep FB (blk MB s y (t - s) (y' - y))) (cB : FB.Clean) :
    Ok (onWindow MC x y x' y' fun W => mzd_addmul_m4rm tr e W FA FB) fun N => Sh MC N ∧
      (∀ a b, x ≤ a → a < x' → y ≤ b → b < y' → bitF (N.bit a b) = bitF (MC.bit a b) + ∑ l ∈ Finset.range (t - s), bitF (MA.bit a (s + l)) * bitF (MB.bit (s + l) b)) ∧
      ∀ a b, ¬ (x ≤ a ∧ a < x' ∧ y ≤ b ∧ b < y') → N.bit a b = MC.bit a b := by
  by_cases hz : x = x' ∨ y = y'
  · have nW : (mzd_window MC x y x' y').nrows = x' - x := window_nrows (by omega)
    have mW : (mzd_window MC x y x' y').ncols = y' - y := rfl
    have hf : Ok (mzd_addmul_m4rm tr e (mzd_window MC x y x' y') FA FB) fun N => Wr (mzd_window MC x y x' y') N (blk (mzd_window MC x y x' y') 0 0 (x' - x) (y' - y)) := by
      unfold mzd_addmul_m4rm
      rw [if_pos (by rw [nW, mW]; omega), Ok.pure_iff]
      exact Wr.self _ _ _
    refine (onWindow_spec (f := fun W => mzd_addmul_m4rm tr e W FA FB) wC hy hf).mono ?_
    intro N ⟨sh, _, hout⟩
    exact ⟨sh, fun a b h1 h2 h3 h4 => by omega, fun a b hab => hout a b (by omega)⟩
  · have rC : Rep (mzd_window MC x y x' y') (blk MC x y (x' - x) (y' - y)) := window_rep wC hy (by omega) (by omega) hr hc (by omega) (by omega)
    have hf := addmul_m4rm_adds htr e (by omega) (by omega) rC rA cA rB cB
    refine (onWindow_spec (f := fun W => mzd_addmul_m4rm tr e W FA FB) wC hy hf).mono ?_
    intro N ⟨sh, hin, hout⟩
    refine ⟨sh, fun a b h1 h2 h3 h4 => ?_, fun a b hab => hout a b (by omega)⟩
    have := hin ⟨a - x, by omega⟩ ⟨b - y, by omega⟩
    rw [Matrix.add_apply, Matrix.mul_apply] at this
    unfold blk at this
    simp only [show x + (a - x) = a by omega, show y + (b - y) = b by omega] at this
    rw [this, Fin.sum_univ_eq_sum_range (fun l => bitF (MA.bit a (s + l)) * bitF (MB.bit (s + l) b))]

theorem add_rem (htr : Transposes tr) (e : Nat → MulEnv) {M0 : Mzd} {X : Matrix (Fin m) (Fin n) (ZMod 2)} (hX : Rep M0 X) (s0 : Sh M0 MC) (hk : 0 < k) (hk' : k ≤ 2 ^ 24)
    (hA : Rep MA A) (cA : MA.Clean) (hB : Rep MB B) (cB : MB.Clean) (hP : P ≤ m) (hK : K ≤ k) (hQ : Q ≤ n) (hK' : K % 64 = 0) (hQ' : Q % 64 = 0)
    (hS : ∀ a < P, ∀ b < Q, bitF (MC.bit a b) = bitF (M0.bit a b) + S MA MB K a b) (hO : ∀ a b, ¬ (a < P ∧ b < Q) → MC.bit a b = M0.bit a b) :
    Ok (addmulRem tr e P K Q MC MA MB) fun N => Wr M0 N (X + A * B) := by
  have wC := s0.wf hX.wf
  have nC : MC.nrows = m := by rw [s0.nrows, hX.nrows]
  have mC : MC.ncols = n := by rw [s0.ncols, hX.ncols]
  have full : ∀ a b, ∑ l ∈ Finset.range (k - 0), bitF (MA.bit a (0 + l)) * bitF (MB.bit (0 + l) b) = S MA MB k a b := by
    intro a b
    unfold S
    simp only [Nat.zero_add, Nat.sub_zero]
  unfold addmulRem
  rw [hA.nrows, hA.ncols, hB.ncols]
  refine Ok.bind (P := fun N => Sh MC N ∧ (∀ a < m, ∀ b, Q ≤ b → b < n → bitF (N.bit a b) = bitF (M0.bit a b) + S MA MB k a b) ∧
    ∀ a b, ¬ (a < m ∧ Q ≤ b ∧ b < n) → N.bit a b = MC.bit a b) ?_ ?_
  · split
    · rename_i hlt
      have rA : Rep MA (blk MA 0 0 (m - 0) (k - 0)) := by
        rw [Nat.sub_zero, Nat.sub_zero, blk_rep hA]
        exact hA
      refine (add_window (MA := MA) (MB := MB) htr (e 0) (s := 0) (t := k) wC hQ' (by omega) (by omega) (by omega) (by omega) hk hk' rA cA
        (window_rep hB.wf hQ' (by omega) (by omega) (by rw [hB.nrows]) (by rw [hB.ncols]) (by omega) (by omega))
        (window_clean cB hQ' (by omega) (by omega) (by rw [hB.nrows]) (Or.inl hB.ncols.symm))).mono ?_
      intro N ⟨sh, hin, hout⟩
      refine ⟨sh, fun a ha b hb1 hb2 => ?_, fun a b hab => hout a b (by omega)⟩
      rw [hin a b (by omega) ha hb1 hb2, full, hO a b (by omega)]
    · rw [Ok.pure_iff]
      exact ⟨Sh.refl MC, fun a ha b hb1 hb2 => by omega, fun a b _ => rfl⟩
  intro N1 ⟨sh1, in1, out1⟩
  refine Ok.bind (P := fun N => Sh MC N ∧ (∀ a < m, ∀ b, Q ≤ b → b < n → bitF (N.bit a b) = bitF (M0.bit a b) + S MA MB k a b) ∧
    (∀ a, P ≤ a → a < m → ∀ b < Q, bitF (N.bit a b) = bitF (M0.bit a b) + S MA MB k a b) ∧ (∀ a < P, ∀ b < Q, bitF (N.bit a b) = bitF (M0.bit a b) + S MA MB K a b) ∧
    ∀ a b, ¬ (a < m ∧ b < n) → N.bit a b = M0.bit a b) ?_ ?_
  · split
    · rename_i hlt
      by_cases hQ0 : Q = 0
      · subst hQ0
        refine (onWindow_spec (Y := blk (mzd_window N1 P 0 m 0) 0 0 (m - P) 0) (f := fun W => mzd_addmul_m4rm tr (e 1) W (mzd_window MA P 0 m k) (mzd_window MB 0 0 k 0)) (sh1.wf wC) (Nat.zero_mod 64) ?_).mono ?_
        · unfold mzd_addmul_m4rm
          rw [if_pos (Or.inl (show (mzd_window N1 P 0 m 0).ncols = 0 from rfl)), Ok.pure_iff]
          exact Wr.self _ _ _
        · intro N ⟨sh, _, hout⟩
          refine ⟨sh1.trans sh, fun a ha b hb1 hb2 => ?_, fun a ha1 ha2 b hb => by omega, fun a ha b hb => by omega, fun a b hab => ?_⟩
          · rw [hout a b (by omega)]
            exact in1 a ha b hb1 hb2
          · rw [hout a b (by omega), out1 a b (by omega), hO a b (by omega)]
      · refine (add_window (MA := MA) (MB := MB) htr (e 1) (s := 0) (t := k) (sh1.wf wC) rfl (by omega) (by omega) (by rw [sh1.nrows]; omega) (by rw [sh1.ncols]; omega) hk hk'
          (window_rep hA.wf rfl (by omega) (by omega) (by rw [hA.nrows]) (by rw [hA.ncols]) (by omega) (by omega))
          (window_clean cA rfl (by omega) (by omega) (by rw [hA.nrows]) (Or.inl hA.ncols.symm))
          (window_rep hB.wf rfl (by omega) (by omega) (by rw [hB.nrows]) (by rw [hB.ncols]; exact hQ) (by omega) (by omega))
          (window_clean cB rfl (by omega) (by omega) (by rw [hB.nrows]) (Or.inr (by omega)))).mono ?_
        intro N ⟨sh, hin, hout⟩
        refine ⟨sh1.trans sh, fun a ha b hb1 hb2 => ?_, fun a ha1 ha2 b hb => ?_, fun a ha b hb => ?_, fun a b hab => ?_⟩
        · rw [hout a b (by omega)]
          exact in1 a ha b hb1 hb2
        · rw [hin a b ha1 ha2 (by omega) hb, full, out1 a b (by omega), hO a b (by omega)]
        · rw [hout a b (by omega), out1 a b (by omega)]
          exact hS a ha b hb
        · rw [hout a b (by omega), out1 a b (by omega), hO a b (by omega)]
    · rw [Ok.pure_iff]
      refine ⟨sh1, in1, fun a ha1 ha2 b hb => by omega, fun a ha b hb => ?_, fun a b hab => ?_⟩
      · rw [out1 a b (by omega)]
        exact hS a ha b hb
      · rw [out1 a b (by omega), hO a b (by omega)]
  intro N2 ⟨sh2, in2, in2', in2'', out2⟩
  have fin : ∀ N, Sh N2 N ∧ (∀ a < P, ∀ b < Q, bitF (N.bit a b) = bitF (M0.bit a b) + S MA MB k a b) ∧ (∀ a b, ¬ (a < P ∧ b < Q) → N.bit a b = N2.bit a b) →
      Wr M0 N (X + A * B) := by
    intro N ⟨sh, hin, hout⟩
    refine ⟨(s0.trans sh2).trans sh, fun i j => ?_, fun a b hab => ?_⟩
    · rw [Matrix.add_apply, mul_S hA hB, ← hX.bit i j]
      have hi := i.2
      have hj := j.2
      by_cases h1 : i.val < P
      · by_cases h2 : j.val < Q
        · exact hin i h1 j h2
        · rw [hout i j (by omega)]
          exact in2 i hi j (by omega) hj
      · rw [hout i j (by omega)]
        by_cases h2 : j.val < Q
        · exact in2' i (by omega) hi j h2
        · exact in2 i hi j (by omega) hj
    · rw [hout a b (by omega), out2 a b hab]
  split
  · rename_i hlt
    by_cases he : Q = 0 ∨ P = 0
    · refine (onWindow_spec (Y := blk (mzd_window N2 0 0 P Q) 0 0 P Q) (f := fun W => mzd_addmul_m4rm tr (e 2) W (mzd_window MA 0 K P k) (mzd_window MB K 0 k Q)) (sh2.wf wC) (Nat.zero_mod 64) ?_).mono ?_
      · unfold mzd_addmul_m4rm
        have nW : (mzd_window N2 0 0 P Q).nrows = P := by rw [window_nrows (by rw [sh2.nrows]; omega)]; omega
        have mW : (mzd_window N2 0 0 P Q).ncols = Q := Nat.sub_zero Q
        rw [if_pos (by rw [nW, mW]; exact he), Ok.pure_iff]
        exact Wr.self _ _ _
      · intro N ⟨sh, _, hout⟩
        exact fin N ⟨sh, fun a ha b hb => by omega, fun a b hab => hout a b (by omega)⟩
    · refine (add_window (MA := MA) (MB := MB) htr (e 2) (s := K) (t := k) (sh2.wf wC) rfl (by omega) (by omega) (by rw [sh2.nrows]; omega) (by rw [sh2.ncols]; omega) hlt hk'
        (window_rep hA.wf hK' (by omega) (by omega) (by rw [hA.nrows]; exact hP) (by rw [hA.ncols]) (by omega) (by omega))
        (window_clean cA hK' (by omega) (by omega) (by rw [hA.nrows]; exact hP) (Or.inl hA.ncols.symm))
        (window_rep hB.wf rfl (by omega) (by omega) (by rw [hB.nrows]) (by rw [hB.ncols]; exact hQ) (by omega) (by omega))
        (window_clean cB rfl (by omega) (by omega) (by rw [hB.nrows]) (Or.inr (by omega)))).mono ?_
      intro N ⟨sh, hin, hout⟩
      refine fin N ⟨sh, fun a ha b hb => ?_, fun a b hab => hout a b (by omega)⟩
      rw [hin a b (by omega) ha (by omega) hb, in2'' a ha b hb, add_assoc, ← S_add, show K + (k - K) = k by omega]
  · rw [Ok.pure_iff]
    have : K = k := by omega
    exact fin N2 ⟨Sh.refl _, fun a ha b hb => by rw [← this]; exact in2'' a ha b hb, fun _ _ _ => rfl⟩

end

/-- Sizes for which the product can be added. -/
def GoodAdd (c m k n : Nat) : Prop := ¬ (c = 64 ∧ 86 ≤ k ∧ k < 128 ∧ 128 ≤ m ∧ 128 ≤ n)

theorem goodAdd_of_mod {c m k n : Nat} (hk : k % 64 = 0) : GoodAdd c m k n := by
  unfold GoodAdd
  omega

theorem addmul_even {tr : Bool → Mzd → C Mzd} (htr : ∀ b, Transposes (tr b)) {c : Nat} (hc : 64 ≤ c) (hc64 : c % 64 = 0) : ∀ (fuel : Nat) (e : List Nat → MulEnv) (win : Bool) (m k n : Nat),
    m < fuel → (0 < k ∨ m = 0 ∨ n = 0) → k ≤ 2 ^ 24 → GoodAdd c m k n → AddsTo (_mzd_addmul_even tr c fuel e win) m k n := by
  intro fuel
  induction fuel with
  | zero => intro e win m k n h; omega
  | succ fuel ih =>
    intro e win m k n hf h0 hk' hg MC MA MB X A B hX hA cA hB cB
    unfold _mzd_addmul_even
    rw [hX.nrows, hX.ncols, hA.nrows, hA.ncols, hB.ncols]
    by_cases hz : m = 0 ∨ n = 0
    · rw [if_pos hz, Ok.pure_iff]
      exact empty_wr _ hz
    rw [if_neg hz]
    have hk : 0 < k := by omega
    have hn0 : 0 < n := by omega
    by_cases hcl : (closer m c || closer k c || closer n c) = true
    · rw [if_pos hcl]
      cases win
      · rw [if_neg (by simp)]
        exact addmul_m4rm_adds (htr false) (e []) hk hk' hX hA cA hB cB
      · rw [if_pos rfl]
        refine Ok.bind (copy_new hk hA) fun MA' ⟨hA', cA'⟩ => ?_
        refine Ok.bind (copy_new hn0 hB) fun MB' ⟨hB', cB'⟩ => ?_
        refine Ok.bind (copy_new hn0 hX) fun MC' ⟨hX', cX'⟩ => ?_
        refine Ok.bind (addmul_m4rm_adds (htr false) (e []) hk hk' hX' hA' cA' hB' cB') fun D h => ?_
        exact copy_wr hX.wf hn0 hX.nrows hX.ncols (h.rep hX'.wf hX'.nrows hX'.ncols)
    · rw [if_neg hcl]
      simp only []
      unfold closer at hcl
      simp only [Bool.or_eq_true, decide_eq_true_eq, not_or, Nat.not_lt] at hcl
      obtain ⟨⟨hm1, hk1⟩, hn1⟩ := hcl
      have hcase := mult_cases (m := m) (k := k) (n := n) hc
      have hsmall : min (min m n) k < 128 → multOf c (min (min m n) k / 2) 64 = 64 := fun h => mult_small (by omega)
      generalize hmu : multOf c (min (min m n) k / 2) 64 = mu at hcase hsmall
      have hpos : 128 ≤ min (min m n) k → 0 < halfOf k mu := fun h => halfOf_pos (by omega) (by omega)
      have lp := halfOf_le m mu
      have lk := halfOf_le k mu
      have ln := halfOf_le n mu
      have mk := halfOf_mod k mu
      have mn := halfOf_mod n mu
      unfold GoodAdd at hg
      have g1 : 0 < halfOf k mu ∨ halfOf m mu = 0 ∨ halfOf n mu = 0 := by
        by_cases h : min (min m n) k < 128
        · rw [hsmall h, halfOf_64, halfOf_64, halfOf_64]
          omega
        · exact Or.inl (hpos (by omega))
      have wA : Room MA (halfOf m mu) (halfOf k mu) := ⟨hA.wf, mk, by rw [hA.nrows]; omega, by rw [hA.ncols]; omega⟩
      have wB : Room MB (halfOf k mu) (halfOf n mu) := ⟨hB.wf, mn, by rw [hB.nrows]; omega, by rw [hB.ncols]; omega⟩
      have hb := addmul_blocks_spec (mul := fun i => _mzd_mul_even tr c fuel (fun l => e (i :: l))) (addmul := fun i => _mzd_addmul_even tr c fuel (fun l => e (i :: l)))
        (p := halfOf m mu) (k := halfOf k mu) (q := halfOf n mu)
        (fun i w => mul_even htr hc hc64 fuel (fun l => e (i :: l)) w _ _ _ (by omega) g1 (by omega) (good_of_mod mk mn))
        (fun i w => ih (fun l => e (i :: l)) w _ _ _ (by omega) g1 (by omega) (goodAdd_of_mod mk)) ⟨hX.wf, mn, by rw [hX.nrows]; omega, by rw [hX.ncols]; omega⟩ wA wB
      refine Ok.bind hb fun N hN => ?_
      refine add_rem (htr true) (fun i => e [7 + i]) hX hN.sh hk hk' hA cA hB cB lp lk ln (by omega) (by omega) ?_ fun a b hab => hN.out a b hab
      intro a ha b hb
      obtain ⟨u, hu, i, rfl⟩ := half_cases ha
      obtain ⟨v, hv, j, rfl⟩ := half_cases hb
      rw [← two_S wA wB hu hv]
      exact congrFun (congrFun (hN.mat u hu v hv) i) j

theorem addsqr_even {tr : Bool → Mzd → C Mzd} (htr : ∀ b, Transposes (tr b)) (htr0 : ∀ b, TransposesZero (tr b)) {c : Nat} (hc : 64 ≤ c) (hc64 : c % 64 = 0) :
    ∀ (fuel : Nat) (e : List Nat → MulEnv) (win : Bool) (m : Nat), m < fuel → m ≤ 2 ^ 24 → AddSqrsTo (_mzd_addsqr_even tr c fuel e win) m := by
  intro fuel
  induction fuel with
  | zero => intro e win m h; omega
  | succ fuel ih =>
    intro e win m hf hk' MC MA X A hX hA cA
    unfold _mzd_addsqr_even
    rw [hX.nrows, hA.nrows]
    by_cases hz : m = 0
    · rw [if_pos hz, Ok.pure_iff]
      exact empty_wr _ (Or.inl hz)
    rw [if_neg hz]
    have hk : 0 < m := by omega
    by_cases hcl : closer m c = true
    · rw [if_pos hcl]
      cases win
      · rw [if_neg (by simp)]
        exact addmul_m4rm_adds (htr false) (e []) hk hk' hX hA cA hA cA
      · rw [if_pos rfl]
        refine Ok.bind (copy_new hk hX) fun MC' ⟨hX', cX'⟩ => ?_
        refine Ok.bind (copy_new hk hA) fun MA' ⟨hA', cA'⟩ => ?_
        refine Ok.bind (addmul_m4rm_adds (htr false) (e []) hk hk' hX' hA' cA' hA' cA') fun D h => ?_
        exact copy_wr hX.wf hk hX.nrows hX.ncols (h.rep hX'.wf hX'.nrows hX'.ncols)
    · rw [if_neg hcl]
      simp only []
      generalize hmu : multOf c (m / 2) 64 = mu
      have lp := halfOf_le m mu
      have mk := halfOf_mod m mu
      have g1 : 0 < halfOf m mu ∨ halfOf m mu = 0 ∨ halfOf m mu = 0 := by omega
      have wA : Room MA (halfOf m mu) (halfOf m mu) := ⟨hA.wf, mk, by rw [hA.nrows]; omega, by rw [hA.ncols]; omega⟩
      have hb := addsqr_blocks_spec (mul := fun i => _mzd_mul_even tr c fuel (fun l => e (i :: l))) (addmul := fun i => _mzd_addmul_even tr c fuel (fun l => e (i :: l)))
        (sqr := fun i => _mzd_sqr_even tr c fuel (fun l => e (i :: l))) (addsqr := fun i => _mzd_addsqr_even tr c fuel (fun l => e (i :: l)))
        (fun i w => mul_even htr hc hc64 fuel (fun l => e (i :: l)) w _ _ _ (by omega) g1 (by omega) (good_of_mod mk mk))
        (fun i w => addmul_even htr hc hc64 fuel (fun l => e (i :: l)) w _ _ _ (by omega) g1 (by omega) (goodAdd_of_mod mk))
        (fun i w => sqr_even htr htr0 hc hc64 fuel (fun l => e (i :: l)) w _ (by omega) (by omega) (good_of_mod mk mk))
        (fun i w => ih (fun l => e (i :: l)) w _ (by omega) (by omega)) ⟨hX.wf, mk, by rw [hX.nrows]; omega, by rw [hX.ncols]; omega⟩ wA
      refine Ok.bind hb fun N hN => ?_
      refine add_rem (htr true) (fun i => e [7 + i]) hX hN.sh hk hk' hA cA hA cA lp lp lp (by omega) (by omega) ?_ fun a b hab => hN.out a b hab
      intro a ha b hb
      obtain ⟨u, hu, i, rfl⟩ := half_cases ha
      obtain ⟨v, hv, j, rfl⟩ := half_cases hb
      rw [← two_S wA wA hu hv]
      exact congrFun (congrFun (hN.mat u hu v hv) i) j

/-! ## Transposition -/

theorem transposes_any (junk : Nat → Word) (mb : Mzd → Mzd → C Mzd) (b : Bool) : Transposes (mzd_transpose_any junk mb b) := by
  intro M r c A hr hc hf hM cM
  unfold mzd_transpose_any
  cases b
  · exact transposes junk mb hr hc hf hM cM
  · rw [if_pos rfl]
    unfold mzd_transpose_win
    simp only []
    rw [hM.nrows, hM.ncols, if_neg (by omega)]
    obtain ⟨N, e1, hN, cN⟩ := copy_new hc hM
    rw [e1, C_ok_bind]
    have h := transposes junk mb hr hc hf hN cN
    unfold mzd_transpose at h
    simp only [] at h
    rw [hN.nrows, hN.ncols, if_neg (by omega)] at h
    exact h

theorem transposes_zero (junk : Nat → Word) (mb : Mzd → Mzd → C Mzd) (b : Bool) : TransposesZero (mzd_transpose_any junk mb b) := by
  intro M h1 h2
  unfold mzd_transpose_any mzd_transpose_win mzd_transpose
  simp only []
  rw [if_pos (Or.inl h1), if_pos (Or.inl h1), ite_self]
  exact ⟨_, copy_zero h1 h2⟩

theorem transpose_empty (junk : Nat → Word) (mb : Mzd → Mzd → C Mzd) (b : Bool) {M : Mzd} (h : (M.nrows = 0 ∧ 0 < M.ncols) ∨ (M.ncols = 0 ∧ 0 < M.nrows)) :
    mzd_transpose_any junk mb b M = .error .abort := by
  unfold mzd_transpose_any mzd_transpose_win mzd_transpose
  simp only []
  have hz : M.nrows = 0 ∨ M.ncols = 0 := by omega
  rw [if_pos hz, if_pos hz, ite_self]
  unfold mzd_copy
  refine if_pos ?_
  show M.ncols < M.nrows ∨ M.nrows < M.ncols
  omega

/-! ## Where it fails -/

theorem bind_error {α β : Type} (x : Fault) (f : α → C β) : ((Except.error x : C α) >>= f) = .error x := rfl

theorem copy_no_columns {M : Mzd} (h1 : 0 < M.nrows) (h2 : M.ncols = 0) : mzd_copy_new M = .error .oob := by
  unfold mzd_copy_new mzd_copy
  rw [if_neg (by simp [mzd_init])]
  obtain ⟨n, hn⟩ : ∃ n, M.nrows = n + 1 := ⟨M.nrows - 1, by omega⟩
  have hw : M.width = 0 := by unfold Mzd.width; omega
  have hg : (mzd_init M.nrows M.ncols).get 0 0 = .error .oob := if_neg (show ¬ (0 < M.nrows ∧ 0 + 0 < (M.ncols + 63) / 64) by omega)
  generalize mzd_init M.nrows M.ncols = D at hg
  unfold forUp
  rw [hn, hw, show n + 1 - 0 = n + 1 from rfl, List.range'_succ, List.foldlM_cons]
  have e : List.range' 0 (0 - 1 - 0) = [] := rfl
  simp only [e, List.foldlM_nil, Nat.zero_sub]
  show ((D.get 0 0 >>= _) >>= _) = _
  rw [hg]
  rfl

theorem m4rm_big (tr : Mzd → C Mzd) (e : MulEnv) {MC MA MB : Mzd} {r k c : Nat} {A : Matrix (Fin r) (Fin k) (ZMod 2)} {B : Matrix (Fin k) (Fin c) (ZMod 2)} (hr0 : 16 ≤ r) (hc0 : 54 ≤ c)
    (wC : MC.Wf) (hr : MC.nrows = r) (hcc : MC.ncols = c) (hA : Rep MA A) (hB : Rep MB B) : Ok (_mzd_mul_m4rm tr e true MC MA MB) fun N => Wr MC N (A * B) := by
  unfold _mzd_mul_m4rm
  rw [if_neg (by rw [hB.ncols, hA.nrows]; omega), if_pos rfl]
  unfold mul_m4rm_tables
  refine Ok.bind (zero_wr (by omega) wC hr hcc) fun C1 h1 => ?_
  refine (addmul_tables hA.wf hB.wf (by rw [hA.ncols, hB.nrows]) (by rw [hB.ncols]; omega) (h1.sh.wf wC) (by rw [h1.sh.nrows, hr, hA.nrows]) (by rw [h1.sh.ncols, hcc, hB.ncols])).mono
    fun D ⟨sh, hD⟩ => ?_
  have := acc_wr hA hB h1 sh hD
  rwa [zero_add] at this

theorem base_no_columns {tr : Bool → Mzd → C Mzd} {c fuel : Nat} (hc : 0 < c) (e : List Nat → MulEnv) {W MS MT : Mzd} (h1 : 0 < W.nrows) (h2 : 0 < W.ncols) (h3 : 0 < MS.nrows)
    (h4 : MS.ncols = 0) : _mzd_mul_even tr c (fuel + 1) e true W MS MT = .error .oob := by
  unfold _mzd_mul_even
  have : closer MS.ncols c = true := by unfold closer; rw [h4]; simp; omega
  rw [if_neg (by omega), this, Bool.or_true, Bool.true_or, if_pos rfl, if_pos rfl, copy_no_columns h3 h4]
  rfl

theorem mul_even_crash (tr : Bool → Mzd → C Mzd) (e : List Nat → MulEnv) (win : Bool) {fuel m k n : Nat} {MC MA MB : Mzd} {A : Matrix (Fin m) (Fin k) (ZMod 2)} {B : Matrix (Fin k) (Fin n) (ZMod 2)}
    (wC : MC.Wf) (hr : MC.nrows = m) (hcc : MC.ncols = n) (hA : Rep MA A) (hB : Rep MB B) (hm : 128 ≤ m) (hn : 128 ≤ n) (hk : 86 ≤ k) (hk' : k < 128) :
    _mzd_mul_even tr 64 (fuel + 2) e win MC MA MB = .error .oob := by
  unfold _mzd_mul_even
  rw [hr, hcc, hA.nrows, hA.ncols, hB.ncols, if_neg (by omega), if_neg (by unfold closer; simp; omega)]
  simp only []
  rw [mult_small (show min (min m n) k / 2 ≤ 64 by omega), halfOf_64, halfOf_64, halfOf_64, show k / 128 * 64 = 0 by omega]
  have l1 : (1 : Nat) < 2 := by omega
  have l0 : (0 : Nat) < 2 := by omega
  generalize hp : m / 128 * 64 = p
  generalize hq : n / 128 * 64 = q
  have rA : ∀ u v, u < 2 → v < 2 → Rep (quad MA p 0 u v) (qb MA p 0 u v) ∧ (quad MA p 0 u v).Clean := fun u v hu hv => quad_rep hA.wf rfl hu hv (by rw [hA.nrows]; omega) (by rw [hA.ncols]; omega)
  have rB : ∀ u v, u < 2 → v < 2 → Rep (quad MB 0 q u v) (qb MB 0 q u v) ∧ (quad MB 0 q u v).Clean := fun u v hu hv => quad_rep hB.wf (by omega) hu hv (by rw [hB.nrows]; omega) (by rw [hB.ncols]; omega)
  have rC := (quad_rep (M := MC) (p := p) (q := q) wC (by omega) l1 l0 (by omega) (by omega)).1
  unfold mulBlocks
  obtain ⟨T, eT, _⟩ := (Own.init 0 q).add (rB 1 1 l1 l1).1 (rB 0 1 l0 l1).1
  obtain ⟨S, eS, oS, _⟩ := (Own.init p 0).add (rA 1 1 l1 l1).1 (rA 0 1 l0 l1).1
  rw [eT, C_ok_bind, eS, C_ok_bind]
  have := base_no_columns (tr := tr) (c := 64) (fuel := fuel) (by omega) (fun l => e (0 :: l)) (W := quad MC p q 1 0) (MS := S) (MT := T) (by rw [rC.nrows]; omega) (by rw [rC.ncols]; omega)
    (by rw [oS.2.1]; omega) oS.2.2.1
  have hq : (onQuad MC p q 1 0 fun W => _mzd_mul_even tr 64 (fuel + 1) (fun l => e (0 :: l)) true W S T) = .error .oob := by
    unfold onQuad onWindow
    unfold quad at this
    simp only [this]
    rfl
  show ((onQuad MC p q 1 0 fun W => _mzd_mul_even tr 64 (fuel + 1) (fun l => e (0 :: l)) true W S T) >>= _) >>= _ = _
  rw [hq]
  rfl

theorem rem_abort {tr : Mzd → C Mzd} (htr : Transposes tr) (htr' : ∀ M : Mzd, M.ncols = 0 → 0 < M.nrows → tr M = .error .abort) (e : Nat → MulEnv) {MC MA MB : Mzd} {m k n P K : Nat}
    {A : Matrix (Fin m) (Fin k) (ZMod 2)} {B : Matrix (Fin k) (Fin n) (ZMod 2)} (hk : 0 < k) (hn : 0 < n) (hk' : k ≤ 2 ^ 24) (wC : MC.Wf) (hr : MC.nrows = m) (hc : MC.ncols = n) (hA : Rep MA A)
    (cA : MA.Clean) (hB : Rep MB B) (cB : MB.Clean) (hP : P < m) : mulRem tr e P K 0 MC MA MB = .error .abort := by
  unfold mulRem
  obtain ⟨N, eN, sh, _⟩ := rem_col htr (e 0) hk hk' wC hr hc hA cA hB cB (Nat.zero_mod 64) hn
  rw [if_pos (by rw [hB.ncols]; exact hn), eN, C_ok_bind, if_pos (by rw [hA.nrows]; exact hP)]
  have : onWindow N P 0 MA.nrows 0 (fun W => _mzd_mul_m4rm tr (e 1) true W (mzd_window MA P 0 MA.nrows MA.ncols) (mzd_window MB 0 0 MA.ncols 0)) = .error .abort := by
    unfold onWindow _mzd_mul_m4rm mzd_mul_naive
    beta_reduce
    have n1 : (mzd_window MB 0 0 MA.ncols 0).ncols = 0 := rfl
    have n2 : (mzd_window N P 0 MA.nrows 0).nrows = (mzd_window MA P 0 MA.nrows MA.ncols).nrows := by
      rw [window_nrows (by rw [sh.nrows, hr, hA.nrows]), window_nrows (by omega)]
    have n3 : (mzd_window N P 0 MA.nrows 0).ncols = (mzd_window MB 0 0 MA.ncols 0).ncols := rfl
    have n4 : 0 < (mzd_window MB 0 0 MA.ncols 0).nrows := by
      rw [window_nrows (by rw [hA.ncols, hB.nrows]), hA.ncols]
      omega
    rw [if_pos (Or.inl (by rw [n1]; omega)), if_pos rfl, if_neg (by rw [n2, n3]; simp), if_pos (by rw [n1]; omega), htr' _ n1 n4]
    rfl
  rw [this]
  rfl

theorem mul_even_abort {tr : Bool → Mzd → C Mzd} (htr : ∀ b, Transposes (tr b)) (htr' : ∀ b, ∀ M : Mzd, M.ncols = 0 → 0 < M.nrows → tr b M = .error .abort) (e : List Nat → MulEnv) (win : Bool)
    {fuel m k n : Nat} {MC MA MB : Mzd} {A : Matrix (Fin m) (Fin k) (ZMod 2)} {B : Matrix (Fin k) (Fin n) (ZMod 2)} (hf : m ≤ fuel) (hk' : k ≤ 2 ^ 24) (wC : MC.Wf) (hr : MC.nrows = m)
    (hcc : MC.ncols = n) (hA : Rep MA A) (cA : MA.Clean) (hB : Rep MB B) (cB : MB.Clean) (hm : 86 ≤ m) (hk : 86 ≤ k) (hn : 86 ≤ n) (hn' : n < 128) (hm' : m % 128 ≠ 0) :
    _mzd_mul_even tr 64 (fuel + 1) e win MC MA MB = .error .abort := by
  unfold _mzd_mul_even
  rw [hr, hcc, hA.nrows, hA.ncols, hB.ncols, if_neg (by omega), if_neg (by unfold closer; simp; omega)]
  simp only []
  rw [mult_small (show min (min m n) k / 2 ≤ 64 by omega), halfOf_64, halfOf_64, halfOf_64, show n / 128 * 64 = 0 by omega]
  obtain ⟨N, eN, hN⟩ := blocks_spec (mul := fun i => _mzd_mul_even tr 64 fuel (fun l => e (i :: l)) true) (p := m / 128 * 64) (k := k / 128 * 64) (q := 0)
    (fun i => mul_even htr (by omega) (by omega) fuel (fun l => e (i :: l)) true _ _ _ (by omega) (by omega) (by omega) (good_of_mod (by omega) (by omega)))
    ⟨wC, rfl, by omega, by omega⟩ ⟨hA.wf, by omega, by rw [hA.nrows]; omega, by rw [hA.ncols]; omega⟩ ⟨hB.wf, rfl, by rw [hB.nrows]; omega, by rw [hB.ncols]; omega⟩
  rw [eN, C_ok_bind]
  exact rem_abort (htr true) (htr' true) _ (by omega) (by omega) hk' (hN.sh.wf wC) (by rw [hN.sh.nrows, hr]) (by rw [hN.sh.ncols, hcc]) hA cA hB cB (by omega)

theorem sqr_even_abort {tr : Bool → Mzd → C Mzd} (htr : ∀ b, Transposes (tr b)) (htr0 : ∀ b, TransposesZero (tr b))
    (htr' : ∀ b, ∀ M : Mzd, M.ncols = 0 → 0 < M.nrows → tr b M = .error .abort) (e : List Nat → MulEnv) (win : Bool)
    {fuel m : Nat} {MC MA : Mzd} {A : Matrix (Fin m) (Fin m) (ZMod 2)} (wC : MC.Wf) (hr : MC.nrows = m) (hcc : MC.ncols = m) (hA : Rep MA A) (cA : MA.Clean) (hm : 86 ≤ m) (hm' : m < 128) :
    _mzd_sqr_even tr 64 (fuel + 2) e win MC MA = .error .abort := by
  unfold _mzd_sqr_even
  rw [hA.nrows, if_neg (by unfold closer; simp; omega)]
  simp only []
  rw [mult_small (show m / 2 ≤ 64 by omega), halfOf_64, show m / 128 * 64 = 0 by omega]
  obtain ⟨N, eN, hN⟩ := sqr_blocks_spec (mul := fun i => _mzd_mul_even tr 64 (fuel + 1) (fun l => e (i :: l)) true) (sqr := fun i => _mzd_sqr_even tr 64 (fuel + 1) (fun l => e (i :: l)) true) (p := 0)
    (fun i => mul_even htr (by omega) (by omega) (fuel + 1) (fun l => e (i :: l)) true _ _ _ (by omega) (by omega) (by omega) (good_of_mod (by omega) (by omega)))
    (fun i => sqr_even_zero htr0 (by omega) fuel (fun l => e (i :: l)) true)
    (MC := MC) (MA := MA) ⟨wC, rfl, by omega, by omega⟩ ⟨hA.wf, rfl, by omega, by omega⟩
  rw [eN, C_ok_bind]
  exact rem_abort (htr true) (htr' true) _ (by omega) (by omega) (by omega) (hN.sh.wf wC) (by rw [hN.sh.nrows, hr]) (by rw [hN.sh.ncols, hcc]) hA cA hA cA (by omega)

theorem addmul_even_crash (tr : Bool → Mzd → C Mzd) (e : List Nat → MulEnv) (win : Bool) {fuel m k n : Nat} {MC MA MB : Mzd} {X : Matrix (Fin m) (Fin n) (ZMod 2)} {A : Matrix (Fin m) (Fin k) (ZMod 2)}
    {B : Matrix (Fin k) (Fin n) (ZMod 2)} (hX : Rep MC X) (hA : Rep MA A) (hB : Rep MB B) (hm : 128 ≤ m) (hn : 128 ≤ n) (hk : 86 ≤ k) (hk' : k < 128) :
    _mzd_addmul_even tr 64 (fuel + 2) e win MC MA MB = .error .oob := by
  unfold _mzd_addmul_even
  rw [hX.nrows, hX.ncols, hA.nrows, hA.ncols, hB.ncols, if_neg (by omega), if_neg (by unfold closer; simp; omega)]
  simp only []
  rw [mult_small (show min (min m n) k / 2 ≤ 64 by omega), halfOf_64, halfOf_64, halfOf_64, show k / 128 * 64 = 0 by omega]
  have l1 : (1 : Nat) < 2 := by omega
  have l0 : (0 : Nat) < 2 := by omega
  generalize hp : m / 128 * 64 = p
  generalize hq : n / 128 * 64 = q
  have rA : ∀ u v, u < 2 → v < 2 → Rep (quad MA p 0 u v) (qb MA p 0 u v) ∧ (quad MA p 0 u v).Clean := fun u v hu hv => quad_rep hA.wf rfl hu hv (by rw [hA.nrows]; omega) (by rw [hA.ncols]; omega)
  have rB : ∀ u v, u < 2 → v < 2 → Rep (quad MB 0 q u v) (qb MB 0 q u v) ∧ (quad MB 0 q u v).Clean := fun u v hu hv => quad_rep hB.wf (by omega) hu hv (by rw [hB.nrows]; omega) (by rw [hB.ncols]; omega)
  have wC : Room MC p q := ⟨hX.wf, by omega, by rw [hX.nrows]; omega, by rw [hX.ncols]; omega⟩
  have h0 := Quads.init MC p q
  unfold addmulBlocks
  obtain ⟨S, eS, oS, rS⟩ := (Own.init p 0).add (rA 1 1 l1 l1).1 (rA 1 0 l1 l0).1
  obtain ⟨T, eT, oT, rT⟩ := (Own.init 0 q).add (rB 1 1 l1 l1).1 (rB 1 0 l1 l0).1
  rw [eS, C_ok_bind, eT, C_ok_bind]
  have hU : Ok (_mzd_mul_even tr 64 (fuel + 1) (fun l => e (0 :: l)) false (mzd_init p q) S T) fun N =>
      Wr (mzd_init p q) N ((qb MA p 0 1 1 + qb MA p 0 1 0) * (qb MB 0 q 1 1 + qb MB 0 q 1 0)) := by
    unfold _mzd_mul_even
    have : closer S.ncols 64 = true := by unfold closer; rw [oS.2.2.1]; rfl
    rw [if_neg (show ¬ ((mzd_init p q).nrows = 0 ∨ (mzd_init p q).ncols = 0) by show ¬ (p = 0 ∨ q = 0); omega), this, Bool.or_true, Bool.true_or, if_pos rfl, if_neg (by simp)]
    exact m4rm_big (tr false) _ (by omega) (by omega) (init_wf p q) rfl rfl rS rT
  obtain ⟨U, eU, wU⟩ := hU
  have rU := wU.rep (init_wf p q) rfl rfl
  beta_reduce
  rw [eU, C_ok_bind]
  obtain ⟨C1, e1, h1⟩ := h0.add wC 1 1 l1 l1 (f := fun W => _mzd_add W U W) U _ rfl rU (h0.at wC 1 1 l1 l1)
  obtain ⟨C2, e2, h2⟩ := h1.add wC 0 1 l0 l1 (f := fun W => _mzd_add W U W) U _ rfl rU (h1.at wC 0 1 l0 l1)
  rw [e1, C_ok_bind, e2, C_ok_bind]
  rw [base_no_columns (by omega) _ (by rw [rU.nrows]; omega) (by rw [rU.ncols]; omega) (by rw [(rA 0 1 l0 l1).1.nrows]; omega) (rA 0 1 l0 l1).1.ncols]
  rfl

end WB.m4w
