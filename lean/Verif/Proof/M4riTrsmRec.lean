import Verif.Proof.M4riTrsm
import Verif.Prop.C108

/-!
# Systems with triangular matrices: the recursion (helper lemmas)
-/
namespace WB.m4w

open WB.cmp (Mem Mem2)

/-- A procedure on a window. -/
theorem onWindow_bits {M W' : Mzd} {x y x' y' r c : Nat} {f : Mzd → C Mzd} (w : M.Wf) (hy : y % 64 = 0) (hf : f (mzd_window M x y x' y') = .ok W') (sh : Sh (mzd_window M x y x' y') W')
    (out : ∀ a b, ¬ (a < r ∧ b < c) → W'.bit a b = M.bit (x + a) (y + b)) :
    ∃ N, onWindow M x y x' y' f = .ok N ∧ Sh M N ∧ (∀ a < r, ∀ b < c, N.bit (x + a) (y + b) = W'.bit a b) ∧
      ∀ a b, ¬ (x ≤ a ∧ a < x + r ∧ y ≤ b ∧ b < y + c) → N.bit a b = M.bit a b := by
  have hw : Ok (f (mzd_window M x y x' y')) fun N => Wr (mzd_window M x y x' y') N (blk W' 0 0 r c) :=
    ⟨W', hf, sh, fun i j => by unfold blk; rw [Nat.zero_add, Nat.zero_add], fun a b hab => by rw [out a b hab, window_bit M hy]⟩
  obtain ⟨N, e, s, h1, h2⟩ := onWindow_spec w hy hw
  refine ⟨N, e, s, fun a ha b hb => ?_, h2⟩
  have := h1 ⟨a, ha⟩ ⟨b, hb⟩
  unfold blk at this
  rw [Nat.zero_add, Nat.zero_add] at this
  exact bitF_inj.1 this

theorem adds_bits {W N MA MB : Mzd} {r k c : Nat} {X : Matrix (Fin r) (Fin c) (ZMod 2)} {A : Matrix (Fin r) (Fin k) (ZMod 2)} {B : Matrix (Fin k) (Fin c) (ZMod 2)} (hX : Rep W X) (hA : Rep MA A)
    (hB : Rep MB B) (h : Wr W N (X + A * B)) {a b : Nat} (ha : a < r) (hb : b < c) : N.bit a b = (W.bit a b ^^ xsum k fun l => MA.bit a l && MB.bit l b) := by
  refine bitF_inj.1 ?_
  rw [h.mat ⟨a, ha⟩ ⟨b, hb⟩, bitF_xor, hX.bit ⟨a, ha⟩ ⟨b, hb⟩, bitF_mul_sum hA hB ⟨a, ha⟩ ⟨b, hb⟩, Matrix.add_apply]

theorem window_clean' {M : Mzd} {x y x' y' : Nat} (h : (y' - y) % 64 = 0) : (mzd_window M x y x' y').Clean := by
  intro i hi j h1 h2
  have h3 : y' - y ≤ j := h1
  have h4 : j < 64 * ((y' - y + 63) / 64) := h2
  omega

theorem addmul_adds {junk : Nat → Word} {mb : Mzd → Mzd → C Mzd} {e : List Nat → MulEnv} {win : Bool} {dflt cutoff m k n : Nat} (hk' : k ≤ 2 ^ 24) (hm : m < 2 ^ 29) (hn : n < 2 ^ 29)
    (hbig : asked dflt cutoff < 2 ^ 29) (hbad : asked dflt cutoff < 128 → ¬ Crashes m k n) : AddsTo (mzd_addmul (mzd_transpose_any junk mb) e win dflt cutoff) m k n := by
  intro MC MA MB X A B hX hA cA hB cB
  unfold mzd_addmul
  rw [hX.nrows, hX.ncols, hA.nrows, hA.ncols, hB.nrows, hB.ncols, if_neg (by simp), if_neg (by simp)]
  by_cases hz : m = 0 ∨ k = 0 ∨ n = 0
  · rw [if_pos hz, Ok.pure_iff]
    refine ⟨Sh.refl _, fun i j => ?_, fun _ _ _ => rfl⟩
    rw [hX.bit, Matrix.add_apply, Matrix.mul_apply]
    have h1 := i.2
    have h2 := j.2
    have : k = 0 := by omega
    subst this
    simp
  rw [if_neg hz, if_neg (by rw [product_fits hbig hm hk' hn]; simp)]
  have hg : GoodAdd (cutoffOf dflt cutoff) m k n := by
    unfold GoodAdd
    rw [cutoff_small]
    unfold Crashes at hbad
    omega
  exact addmul_even (transposes_any junk mb) (cutoff_ge dflt cutoff) (cutoff_mod dflt cutoff) (m + 1) e win m k n (by omega) (by omega) hk' hg hX hA cA hB cB

theorem trsmHalf_range {n : Nat} (h : 64 < n) : trsmHalf n % 64 = 0 ∧ 64 ≤ trsmHalf n ∧ trsmHalf n < n ∧ n - trsmHalf n < n ∧ trsmHalf n < n - trsmHalf n + 64 := by
  unfold trsmHalf
  omega

variable {L M N : Mzd} {n c : Nat}

/-! ## From the left -/

theorem lower_left {junk : Nat → Word} {mb : Mzd → Mzd → C Mzd} {bs dflt cutoff c : Nat} (h0 : 0 < c) (hc29 : c < 2 ^ 29) (hbs : 64 ≤ bs) (hbig : asked dflt cutoff < 2 ^ 29) :
    ∀ (fuel : Nat) (e : List Nat → TrsmEnv) (n : Nat) (L M : Mzd), n < fuel → n ≤ 2 ^ 24 → L.Wf → L.nrows = n → L.ncols = n → M.Wf → M.nrows = n → M.ncols = c → (bs < n → M.Clean) →
    Ok (_mzd_trsm_lower_left (mzd_transpose_any junk mb) bs dflt cutoff fuel e L M) fun N => Sol L M N n c fun a l => decide (l < a) := by
  intro fuel
  induction fuel with
  | zero => intro e n L M h; omega
  | succ fuel ih =>
    intro e n L M hf hn wL lr lc wM hr hc cl
    unfold _mzd_trsm_lower_left
    simp only []
    by_cases h64 : M.nrows ≤ 64
    · rw [if_pos h64]
      exact lowerLeftBase_spec wL lr lc wM hr hc h0 (by omega)
    rw [if_neg h64]
    by_cases hb : M.nrows ≤ bs
    · rw [if_pos hb]
      exact lower_left_russian wL lr lc wM hr hc h0 (by omega) _ _
    rw [if_neg hb, hr, hc]
    obtain ⟨r1, r2, r3, r4, r5⟩ := trsmHalf_range (n := n) (by omega)
    generalize trsmHalf n = m at r1 r2 r3 r4 r5
    have cl := cl (by omega)
    -- the rows above
    obtain ⟨W1, e1, h1⟩ := ih (fun l => e (0 :: l)) m (mzd_window L 0 0 m m) (mzd_window M 0 0 m c) (by omega) (by omega) (window_wf wL rfl (by omega) (by omega) (by omega) (by omega))
      (by rw [window_nrows (by omega)]; omega) (Nat.sub_zero _) (window_wf wM rfl (by omega) (by omega) (by omega) (by omega)) (by rw [window_nrows (by omega)]; omega) (Nat.sub_zero _)
      (fun _ => window_clean cl rfl (by omega) (by omega) (by omega) (Or.inl hc.symm))
    have b1 := h1.bit
    simp only [window_bit _ (Nat.zero_mod 64), Nat.zero_add] at b1
    obtain ⟨N1, f1, s1, i1, o1⟩ := onWindow_bits (r := m) (c := c) wM rfl e1 h1.sh fun a b hab => by rw [b1, decide_eq_false hab, Bool.false_and, Bool.xor_false, Nat.zero_add, Nat.zero_add]
    simp only [Nat.zero_add] at i1
    have w1 := s1.wf wM
    have n1 : N1.nrows = n := by rw [s1.nrows, hr]
    have c1 : N1.ncols = c := by rw [s1.ncols, hc]
    have k1 : N1.Clean := fun i hi j hj1 hj2 => by
      rw [o1 i j (by omega)]
      exact cl i (by omega) j (by omega) (by rw [← s1.width]; exact hj2)
    rw [f1, C_ok_bind]
    -- the product
    have rX := window_rep (x := m) (y := 0) (x' := n) (y' := c) w1 rfl (by omega) (by omega) (by omega) (by omega) rfl (Nat.sub_zero c)
    have rA := window_rep (x := m) (y := 0) (x' := n) (y' := m) wL rfl (by omega) (by omega) (by omega) (by omega) rfl (Nat.sub_zero m)
    have rB := window_rep (x := 0) (y := 0) (x' := m) (y' := c) w1 rfl (by omega) (by omega) (by omega) (by omega) (Nat.sub_zero m) (Nat.sub_zero c)
    obtain ⟨W2, e2, h2⟩ := addmul_adds (junk := junk) (mb := mb) (e := (e []).mul) (win := true) (dflt := dflt) (cutoff := cutoff) (show m ≤ 2 ^ 24 by omega) (show n - m < 2 ^ 29 by omega) hc29 hbig
      (by unfold Crashes; omega) rX rA (window_clean' (by omega)) rB (window_clean k1 rfl (by omega) (by omega) (by omega) (Or.inl c1.symm))
    have b2 := fun {a b : Nat} (ha : a < n - m) (hb : b < c) => adds_bits rX rA rB h2 ha hb
    simp only [window_bit _ (Nat.zero_mod 64), Nat.zero_add] at b2
    obtain ⟨N2, f2, s2, i2, o2⟩ := onWindow_bits (r := n - m) (c := c) (x := m) (y := 0) (x' := n) (y' := c)
      (f := fun W => mzd_addmul (mzd_transpose_any junk mb) (e []).mul true dflt cutoff W (mzd_window L m 0 n m) (mzd_window N1 0 0 m c)) w1 rfl e2 h2.sh fun a b hab => by rw [h2.out a b hab, window_bit _ (Nat.zero_mod 64)]
    simp only [Nat.zero_add] at i2
    have w2 := s2.wf w1
    have n2 : N2.nrows = n := by rw [s2.nrows, n1]
    have c2 : N2.ncols = c := by rw [s2.ncols, c1]
    have k2 : N2.Clean := fun i hi j hj1 hj2 => by
      rw [o2 i j (by omega)]
      exact k1 i (by omega) j (by omega) (by rw [← s2.width]; exact hj2)
    rw [f2, C_ok_bind]
    -- the rows below
    obtain ⟨W3, e3, h3⟩ := ih (fun l => e (1 :: l)) (n - m) (mzd_window L m m n n) (mzd_window N2 m 0 n c) (by omega) (by omega) (window_wf wL r1 (by omega) (by omega) (by omega) (by omega))
      (by rw [window_nrows (by omega)]) rfl (window_wf w2 rfl (by omega) (by omega) (by omega) (by omega)) (by rw [window_nrows (by omega)]) (Nat.sub_zero _)
      (fun _ => window_clean k2 rfl (by omega) (by omega) (by omega) (Or.inl c2.symm))
    have b3 := h3.bit
    simp only [window_bit _ (Nat.zero_mod 64), window_bit _ r1, Nat.zero_add] at b3
    obtain ⟨N3, f3, s3, i3, o3⟩ := onWindow_bits (r := n - m) (c := c) w2 rfl e3 h3.sh fun a b hab => by rw [b3, decide_eq_false hab, Bool.false_and, Bool.xor_false, Nat.zero_add]
    simp only [Nat.zero_add] at i3
    refine ⟨N3, f3, (s1.trans s2).trans s3, fun a b => ?_⟩
    have top : ∀ l < m, ∀ b, N3.bit l b = N1.bit l b := fun l hl b => by rw [o3 l b (by omega), o2 l b (by omega)]
    by_cases hab : a < n ∧ b < c
    · rw [decide_eq_true hab, Bool.true_and]
      rw [show n = m + (n - m) by omega, xsum_add]
      by_cases ha : a < m
      · rw [top a ha, i1 a ha b hab.2, b1, decide_eq_true ⟨ha, hab.2⟩, Bool.true_and]
        rw [xsum_congr (n := n - m) (g := fun _ => false) fun l _ => by rw [decide_eq_false (by omega)]; rfl, xsum_false, Bool.xor_false]
        congr 1
        exact xsum_congr fun l hl => by rw [top l hl, i1 l hl b hab.2]
      · obtain ⟨a, rfl⟩ : ∃ a', a = m + a' := ⟨a - m, by omega⟩
        have ha' : a < n - m := by omega
        rw [i3 a ha' b hab.2, b3, decide_eq_true ⟨ha', hab.2⟩, Bool.true_and, i2 a ha' b hab.2, b2 ha' hab.2, o1 _ _ (by omega), Bool.xor_assoc]
        congr 2
        · exact xsum_congr fun l hl => by rw [top l hl, decide_eq_true (by omega), Bool.true_and]
        · exact xsum_congr fun l hl => by rw [i3 l hl b hab.2, show decide (m + l < m + a) = decide (l < a) from decide_eq_decide.2 (by omega)]
    · rw [decide_eq_false hab, Bool.false_and, Bool.xor_false, o3 a b (by omega), o2 a b (by omega), o1 a b (by omega)]

/-! ## The product with a cutoff that is not prepared -/

theorem multOf_zero : ∀ w mu, mu * (w + 1) ≤ multOf 0 w mu := by
  intro w
  induction w using Nat.strongRecOn with
  | _ w ih =>
    intro mu
    rw [multOf]
    split
    · refine Nat.le_trans ?_ (ih (w / 2) (by omega) (2 * mu))
      rw [Nat.mul_comm 2 mu, Nat.mul_assoc]
      exact Nat.mul_le_mul_left _ (by omega)
    · have : w = 0 := by omega
      subst this
      omega

theorem halfOf_lt {x mu : Nat} (h : x < mu) : halfOf x mu = 0 := by
  unfold halfOf
  rw [Nat.mod_eq_of_lt h]
  simp

/-- The cutoff 0 is right as long as the common dimension is not much smaller than the number of rows. -/
theorem addmul_even_zero {tr : Bool → Mzd → C Mzd} (htr : ∀ b, Transposes (tr b)) {fuel : Nat} {e : List Nat → MulEnv} {win : Bool} {m k n : Nat} (hf : m < fuel) (hk : 0 < k) (hk' : k ≤ 2 ^ 24)
    (hm : m < 32 * k) : AddsTo (_mzd_addmul_even tr 0 fuel e win) m k n := by
  intro MC MA MB X A B hX hA cA hB cB
  obtain ⟨fuel, rfl⟩ : ∃ f, fuel = f + 1 := ⟨fuel - 1, by omega⟩
  unfold _mzd_addmul_even
  rw [hX.nrows, hX.ncols, hA.nrows, hA.ncols, hB.ncols]
  by_cases hz : m = 0 ∨ n = 0
  · rw [if_pos hz, Ok.pure_iff]
    exact empty_wr _ hz
  rw [if_neg hz, if_neg (by unfold closer; simp)]
  simp only []
  have hmu := multOf_zero (min (min m n) k / 2) 64
  generalize multOf 0 (min (min m n) k / 2) 64 = mu at hmu
  have lp := halfOf_le m mu
  have lk := halfOf_le k mu
  have ln := halfOf_le n mu
  have mk := halfOf_mod k mu
  have mn := halfOf_mod n mu
  have g : halfOf m mu = 0 ∨ halfOf n mu = 0 := by
    by_cases h : n < mu
    · exact Or.inr (halfOf_lt h)
    · exact Or.inl (halfOf_lt (by omega))
  obtain ⟨fuel, rfl⟩ : ∃ f, fuel = f + 1 := ⟨fuel - 1, by omega⟩
  have wA : Room MA (halfOf m mu) (halfOf k mu) := ⟨hA.wf, mk, by rw [hA.nrows]; omega, by rw [hA.ncols]; omega⟩
  have wB : Room MB (halfOf k mu) (halfOf n mu) := ⟨hB.wf, mn, by rw [hB.nrows]; omega, by rw [hB.ncols]; omega⟩
  have hb := addmul_blocks_spec (mul := fun i => _mzd_mul_even tr 0 (fuel + 1) (fun l => e (i :: l))) (addmul := fun i => _mzd_addmul_even tr 0 (fuel + 1) (fun l => e (i :: l)))
    (p := halfOf m mu) (k := halfOf k mu) (q := halfOf n mu) (fun i w => ?_) (fun i w => ?_) ⟨hX.wf, mn, by rw [hX.nrows]; omega, by rw [hX.ncols]; omega⟩ wA wB
  · refine Ok.bind hb fun N hN => ?_
    refine add_rem (htr true) (fun i => e [7 + i]) hX hN.sh hk hk' hA cA hB cB lp lk ln (by omega) (by omega) ?_ fun a b hab => hN.out a b hab
    intro a ha b hb
    omega
  · intro MC MA MB A B wC nr nc hA cA hB cB
    unfold _mzd_mul_even
    rw [if_pos (by rw [nr, nc]; exact g), Ok.pure_iff]
    exact empty_wr _ g
  · intro MC MA MB X A B hX hA cA hB cB
    unfold _mzd_addmul_even
    rw [if_pos (by rw [hX.nrows, hX.ncols]; exact g), Ok.pure_iff]
    exact empty_wr _ g

/-- The cutoffs of `mzd_trsm_upper_left` for which the result is proved to be right. -/
def GoodCut (cutoff : Nat) : Prop := cutoff % 64 = 0 ∧ cutoff < 2 ^ 29

theorem raw_addmul_adds {junk : Nat → Word} {mb : Mzd → Mzd → C Mzd} {e : List Nat → MulEnv} {win : Bool} {cutoff m k n : Nat} (hk : 128 ≤ k) (hk' : k ≤ 2 ^ 24) (hm : m < 2 ^ 29) (hn : n < 2 ^ 29)
    (hmk : m < 32 * k) (hg : GoodCut cutoff) : AddsTo (_mzd_addmul (mzd_transpose_any junk mb) e win cutoff) m k n := by
  intro MC MA MB X A B hX hA cA hB cB
  unfold _mzd_addmul
  obtain ⟨g1, g2⟩ := hg
  have hfit : productOverflows MA.nrows MA.ncols MB.ncols cutoff = false := by
    rw [hA.nrows, hA.ncols, hB.ncols]
    have : ∀ a, a < 2 ^ 29 → closerOverflows a cutoff = false := by
      intro a ha
      unfold closerOverflows
      rw [Bool.or_eq_false_iff]
      constructor <;> rw [decide_eq_false_iff_not] <;> omega
    unfold productOverflows
    rw [this m hm, this k (by omega), this n hn]
    simp
  rw [if_neg (by rw [hfit]; simp), hA.nrows]
  by_cases hz : cutoff = 0
  · subst hz
    exact addmul_even_zero (transposes_any junk mb) (by omega) (by omega) hk' hmk hX hA cA hB cB
  · exact addmul_even (transposes_any junk mb) (by omega) g1 (m + 1) e win m k n (by omega) (by omega) hk' (by unfold GoodAdd; omega) hX hA cA hB cB

theorem upper_left {junk : Nat → Word} {mb : Mzd → Mzd → C Mzd} {bs cutoff c : Nat} (h0 : 0 < c) (hc29 : c < 2 ^ 29) (hbs : 256 ≤ bs) (hg : GoodCut cutoff) :
    ∀ (fuel : Nat) (e : List Nat → TrsmEnv) (n : Nat) (L M : Mzd), n < fuel → n ≤ 2 ^ 24 → L.Wf → L.nrows = n → L.ncols = n → M.Wf → M.nrows = n → M.ncols = c → (bs < n → M.Clean) →
    (bs < n → L.Clean) →
    Ok (_mzd_trsm_upper_left (mzd_transpose_any junk mb) bs cutoff fuel e L M) fun N => Sol L M N n c fun a l => decide (a < l) := by
  intro fuel
  induction fuel with
  | zero => intro e n L M h; omega
  | succ fuel ih =>
    intro e n L M hf hn wL lr lc wM hr hc cl clL
    unfold _mzd_trsm_upper_left
    simp only []
    by_cases h64 : M.nrows ≤ 64
    · rw [if_pos h64]
      exact upperLeftBase_spec wL lr lc wM hr hc h0 (by omega)
    rw [if_neg h64]
    by_cases hb : M.nrows ≤ bs
    · rw [if_pos hb]
      exact upper_left_russian wL lr lc wM hr hc h0 (by omega) _ _
    rw [if_neg hb, hr, hc]
    obtain ⟨r1, r2, r3, r4, r5⟩ := trsmHalf_range (n := n) (by omega)
    have r6 : 128 ≤ n - trsmHalf n := by unfold trsmHalf; omega
    generalize trsmHalf n = m at r1 r2 r3 r4 r5 r6
    have cl := cl (by omega)
    have clL := clL (by omega)
    -- the rows below
    obtain ⟨W1, e1, h1⟩ := ih (fun l => e (0 :: l)) (n - m) (mzd_window L m m n n) (mzd_window M m 0 n c) (by omega) (by omega) (window_wf wL r1 (by omega) (by omega) (by omega) (by omega))
      (by rw [window_nrows (by omega)]) rfl (window_wf wM rfl (by omega) (by omega) (by omega) (by omega)) (by rw [window_nrows (by omega)]) (Nat.sub_zero _)
      (fun _ => window_clean cl rfl (by omega) (by omega) (by omega) (Or.inl hc.symm)) (fun _ => window_clean clL r1 (by omega) (by omega) (by omega) (Or.inl lc.symm))
    have b1 := h1.bit
    simp only [window_bit _ (Nat.zero_mod 64), window_bit _ r1, Nat.zero_add] at b1
    obtain ⟨N1, f1, s1, i1, o1⟩ := onWindow_bits (r := n - m) (c := c) wM rfl e1 h1.sh fun a b hab => by rw [b1, decide_eq_false hab, Bool.false_and, Bool.xor_false, Nat.zero_add]
    simp only [Nat.zero_add] at i1
    have w1 := s1.wf wM
    have n1 : N1.nrows = n := by rw [s1.nrows, hr]
    have c1 : N1.ncols = c := by rw [s1.ncols, hc]
    have k1 : N1.Clean := fun i hi j hj1 hj2 => by
      rw [o1 i j (by omega)]
      exact cl i (by omega) j (by omega) (by rw [← s1.width]; exact hj2)
    rw [f1, C_ok_bind]
    -- the product
    have rX := window_rep (x := 0) (y := 0) (x' := m) (y' := c) w1 rfl (by omega) (by omega) (by omega) (by omega) (Nat.sub_zero m) (Nat.sub_zero c)
    have rA := window_rep (x := 0) (y := m) (x' := m) (y' := n) wL r1 (by omega) (by omega) (by omega) (by omega) (Nat.sub_zero m) rfl
    have rB := window_rep (x := m) (y := 0) (x' := n) (y' := c) w1 rfl (by omega) (by omega) (by omega) (by omega) rfl (Nat.sub_zero c)
    obtain ⟨W2, e2, h2⟩ := raw_addmul_adds (junk := junk) (mb := mb) (e := (e []).mul) (win := true) (cutoff := cutoff) r6 (show n - m ≤ 2 ^ 24 by omega) (show m < 2 ^ 29 by omega) hc29 (by omega) hg
      rX rA (window_clean clL r1 (by omega) (by omega) (by omega) (Or.inl lc.symm)) rB (window_clean k1 rfl (by omega) (by omega) (by omega) (Or.inl c1.symm))
    have b2 := fun {a b : Nat} (ha : a < m) (hb : b < c) => adds_bits rX rA rB h2 ha hb
    simp only [window_bit _ (Nat.zero_mod 64), window_bit _ r1, Nat.zero_add] at b2
    obtain ⟨N2, f2, s2, i2, o2⟩ := onWindow_bits (r := m) (c := c) (x := 0) (y := 0) (x' := m) (y' := c)
      (f := fun W => _mzd_addmul (mzd_transpose_any junk mb) (e []).mul true cutoff W (mzd_window L 0 m m n) (mzd_window N1 m 0 n c)) w1 rfl e2 h2.sh fun a b hab => by rw [h2.out a b hab, window_bit _ (Nat.zero_mod 64)]
    simp only [Nat.zero_add] at i2
    have w2 := s2.wf w1
    have n2 : N2.nrows = n := by rw [s2.nrows, n1]
    have c2 : N2.ncols = c := by rw [s2.ncols, c1]
    have k2 : N2.Clean := fun i hi j hj1 hj2 => by
      rw [o2 i j (by omega)]
      exact k1 i (by omega) j (by omega) (by rw [← s2.width]; exact hj2)
    rw [f2, C_ok_bind]
    -- the rows above
    obtain ⟨W3, e3, h3⟩ := ih (fun l => e (1 :: l)) m (mzd_window L 0 0 m m) (mzd_window N2 0 0 m c) (by omega) (by omega) (window_wf wL rfl (by omega) (by omega) (by omega) (by omega))
      (by rw [window_nrows (by omega)]; omega) (Nat.sub_zero _) (window_wf w2 rfl (by omega) (by omega) (by omega) (by omega)) (by rw [window_nrows (by omega)]; omega) (Nat.sub_zero _)
      (fun _ => window_clean k2 rfl (by omega) (by omega) (by omega) (Or.inl c2.symm)) (fun _ => window_clean' (by omega))
    have b3 := h3.bit
    simp only [window_bit _ (Nat.zero_mod 64), Nat.zero_add] at b3
    obtain ⟨N3, f3, s3, i3, o3⟩ := onWindow_bits (r := m) (c := c) w2 rfl e3 h3.sh fun a b hab => by rw [b3, decide_eq_false hab, Bool.false_and, Bool.xor_false, Nat.zero_add, Nat.zero_add]
    simp only [Nat.zero_add] at i3
    refine ⟨N3, f3, (s1.trans s2).trans s3, fun a b => ?_⟩
    have bot : ∀ l, m ≤ l → ∀ b, N3.bit l b = N1.bit l b := fun l hl b => by rw [o3 l b (by omega), o2 l b (by omega)]
    by_cases hab : a < n ∧ b < c
    · rw [decide_eq_true hab, Bool.true_and]
      rw [show n = m + (n - m) by omega, xsum_add]
      by_cases ha : a < m
      · rw [i3 a ha b hab.2, b3, decide_eq_true ⟨ha, hab.2⟩, Bool.true_and, i2 a ha b hab.2, b2 ha hab.2, o1 _ _ (by omega), Bool.xor_assoc, Bool.xor_comm (xsum (n - m) _)]
        congr 2
        · exact xsum_congr fun l hl => by rw [i3 l hl b hab.2]
        · exact xsum_congr fun l hl => by rw [bot _ (by omega), decide_eq_true (by omega), Bool.true_and]
      · obtain ⟨a, rfl⟩ : ∃ a', a = m + a' := ⟨a - m, by omega⟩
        have ha' : a < n - m := by omega
        rw [bot _ (by omega), i1 a ha' b hab.2, b1, decide_eq_true ⟨ha', hab.2⟩, Bool.true_and]
        rw [xsum_congr (n := m) (g := fun _ => false) fun l _ => by rw [decide_eq_false (by omega)]; rfl, xsum_false, Bool.false_xor]
        congr 1
        exact xsum_congr fun l hl => by rw [bot _ (by omega), i1 l hl b hab.2, show decide (m + a < m + l) = decide (a < l) from decide_eq_decide.2 (by omega)]
    · rw [decide_eq_false hab, Bool.false_and, Bool.xor_false, o3 a b (by omega), o2 a b (by omega), o1 a b (by omega)]

end WB.m4w
