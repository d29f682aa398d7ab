import Verif.Proof.M4riBlocks

/-!
# The product after Strassen (helper lemmas)
-/
namespace WB.m4w

open WB.cmp (Mem Mem2)

/-! ## Sizes -/

theorem multOf_spec {c : Nat} (hc : 64 ≤ c) : ∀ w mu, multOf c w mu = mu ∨ (2 * mu ≤ multOf c w mu ∧ multOf c w mu * 32 ≤ mu * w) := by
  intro w
  induction w using Nat.strongRecOn with
  | _ w ih =>
    intro mu
    rw [multOf]
    split
    · rename_i h
      right
      have hw : 2 * mu * (w / 2) ≤ mu * w := by
        rw [show 2 * mu * (w / 2) = mu * (2 * (w / 2)) by ring]
        exact Nat.mul_le_mul_left mu (by omega)
      have hw' : mu * 64 ≤ mu * w := Nat.mul_le_mul_left mu (by omega)
      rcases ih (w / 2) (by omega) (2 * mu) with h1 | ⟨h1, h2⟩
      · rw [h1]; omega
      · omega
    · exact Or.inl rfl

theorem halfOf_le (x mult : Nat) : 2 * halfOf x mult ≤ x := by
  unfold halfOf
  have := Nat.mod_le x mult
  omega

theorem halfOf_mod (x mult : Nat) : halfOf x mult % 64 = 0 := by unfold halfOf; omega

theorem halfOf_64 (x : Nat) : halfOf x 64 = x / 128 * 64 := by unfold halfOf; omega

theorem halfOf_pos {x mult : Nat} (h1 : 128 ≤ x) (h2 : mult = 64 ∨ (128 ≤ mult ∧ mult ≤ x)) : 0 < halfOf x mult := by
  have : 128 ≤ x - x % mult := by
    rcases h2 with rfl | ⟨h2, h3⟩
    · omega
    · have h4 := Nat.div_add_mod x mult
      have h5 : 1 ≤ x / mult := (Nat.one_le_div_iff (by omega)).2 h3
      have h6 : mult * 1 ≤ mult * (x / mult) := Nat.mul_le_mul_left mult h5
      omega
  unfold halfOf
  omega

/-- Sizes for which the product ends and is right. -/
def Good (c m k n : Nat) : Prop := ¬ (c = 64 ∧ 86 ≤ m ∧ 86 ≤ k ∧ 86 ≤ n ∧ ((k < 128 ∧ 128 ≤ m ∧ 128 ≤ n) ∨ (n < 128 ∧ m % 128 ≠ 0)))

theorem good_of_mod {c m k n : Nat} (hk : k % 64 = 0) (hn : n % 64 = 0) : Good c m k n := by
  unfold Good
  omega

theorem mult_small {c w : Nat} (h : w ≤ c) : multOf c w 64 = 64 := by rw [multOf, if_neg (by omega)]

theorem mult_cases {c m k n : Nat} (hc : 64 ≤ c) : multOf c (min (min m n) k / 2) 64 = 64 ∨
    (128 ≤ multOf c (min (min m n) k / 2) 64 ∧ multOf c (min (min m n) k / 2) 64 ≤ min (min m n) k) := by
  rcases multOf_spec hc (min (min m n) k / 2) 64 with h | ⟨h1, h2⟩
  · exact Or.inl h
  · right
    omega

/-! ## The rest -/

/-- An entry of the product of the first `k` columns with the first `k` rows. -/
def S (MA MB : Mzd) (k a b : Nat) : ZMod 2 := ∑ l ∈ Finset.range k, bitF (MA.bit a l) * bitF (MB.bit l b)

theorem mul_S {MA MB : Mzd} {r k c : Nat} {A : Matrix (Fin r) (Fin k) (ZMod 2)} {B : Matrix (Fin k) (Fin c) (ZMod 2)} (hA : Rep MA A) (hB : Rep MB B)
    (i : Fin r) (j : Fin c) : (A * B) i j = S MA MB k i j := by
  unfold S
  rw [Matrix.mul_apply, ← Fin.sum_univ_eq_sum_range (fun l => bitF (MA.bit i l) * bitF (MB.bit l j))]
  exact Finset.sum_congr rfl fun l _ => by rw [hA.bit i l, hB.bit l j]

theorem S_add (MA MB : Mzd) (k d a b : Nat) : S MA MB (k + d) a b = S MA MB k a b + ∑ l ∈ Finset.range d, bitF (MA.bit a (k + l)) * bitF (MB.bit (k + l) b) := by
  unfold S
  rw [Finset.sum_range_add]

theorem S_window {MA MB : Mzd} {x y z t x' y' z' t' k a b : Nat} (hy : y % 64 = 0) (ht : t % 64 = 0) :
    S (mzd_window MA x y x' y') (mzd_window MB z t z' t') k a b = ∑ l ∈ Finset.range k, bitF (MA.bit (x + a) (y + l)) * bitF (MB.bit (z + l) (t + b)) := by
  unfold S
  exact Finset.sum_congr rfl fun l _ => by rw [window_bit MA hy, window_bit MB ht]

section

variable {tr : Mzd → C Mzd} {MC MA MB : Mzd} {m k n P K Q : Nat} {A : Matrix (Fin m) (Fin k) (ZMod 2)} {B : Matrix (Fin k) (Fin n) (ZMod 2)}

theorem m4rm_clear (htr : Transposes tr) (e : MulEnv) (hk : 0 < k) (hc : 0 < n) (hk' : k ≤ 2 ^ 24) (wC : MC.Wf) (hr : MC.nrows = m) (hcc : MC.ncols = n) (hA : Rep MA A)
    (cA : MA.Clean) (hB : Rep MB B) (cB : MB.Clean) : Ok (_mzd_mul_m4rm tr e true MC MA MB) fun N => Wr MC N (A * B) :=
  (m4rm_wr htr e true hk hc hk' wC hr hcc hA cA hB cB).mono fun N h => by
    rw [if_pos rfl, zero_add] at h
    exact h

theorem rem_col (htr : Transposes tr) (e : MulEnv) (hk : 0 < k) (hk' : k ≤ 2 ^ 24) (wC : MC.Wf) (hr : MC.nrows = m) (hc : MC.ncols = n) (hA : Rep MA A) (cA : MA.Clean)
    (hB : Rep MB B) (cB : MB.Clean) (hQ' : Q % 64 = 0) (hlt : Q < n) :
    Ok (onWindow MC 0 Q MA.nrows MB.ncols fun W => _mzd_mul_m4rm tr e true W MA (mzd_window MB 0 Q MA.ncols MB.ncols)) fun N =>
      Sh MC N ∧ (∀ a < m, ∀ b, Q ≤ b → b < n → bitF (N.bit a b) = S MA MB k a b) ∧ ∀ a b, ¬ (a < m ∧ Q ≤ b ∧ b < n) → N.bit a b = MC.bit a b := by
  rw [hA.nrows, hA.ncols, hB.ncols]
  have rB : Rep (mzd_window MB 0 Q k n) (blk MB 0 Q k (n - Q)) :=
    window_rep hB.wf hQ' (by omega) (by omega) (by rw [hB.nrows]) (by rw [hB.ncols]) (by omega) (by omega)
  have cBw : (mzd_window MB 0 Q k n).Clean := window_clean cB hQ' (by omega) (by omega) (by rw [hB.nrows]) (Or.inl hB.ncols.symm)
  have wW : (mzd_window MC 0 Q m n).Wf := window_wf wC hQ' (by omega) (by omega) (by omega) (by omega)
  have nW : (mzd_window MC 0 Q m n).nrows = m := by rw [window_nrows (by omega)]; omega
  have mW : (mzd_window MC 0 Q m n).ncols = n - Q := rfl
  have hm := m4rm_clear htr e hk (by omega) hk' wW nW mW hA cA rB cBw
  refine (onWindow_spec (f := fun W => _mzd_mul_m4rm tr e true W MA (mzd_window MB 0 Q k n)) wC hQ' hm).mono ?_
  intro N ⟨sh, hin, hout⟩
  refine ⟨sh, fun a ha b hb1 hb2 => ?_, fun a b hab => hout a b (by omega)⟩
  have := hin ⟨a, ha⟩ ⟨b - Q, by omega⟩
  rw [mul_S hA rB] at this
  simp only [Nat.zero_add] at this
  rw [show Q + (b - Q) = b by omega] at this
  rw [this]
  unfold S
  refine Finset.sum_congr rfl fun l _ => ?_
  rw [window_bit MB hQ', Nat.zero_add, show Q + (b - Q) = b by omega]

theorem rem_row (htr : Transposes tr) (e : MulEnv) (hk : 0 < k) (hk' : k ≤ 2 ^ 24) (wC : MC.Wf) (hr : MC.nrows = m) (hc : MC.ncols = n) (hA : Rep MA A) (cA : MA.Clean)
    (hB : Rep MB B) (cB : MB.Clean) (hQ' : Q % 64 = 0) (h0 : 0 < Q) (hQ : Q ≤ n) (hlt : P < m) :
    Ok (onWindow MC P 0 MA.nrows Q fun W => _mzd_mul_m4rm tr e true W (mzd_window MA P 0 MA.nrows MA.ncols) (mzd_window MB 0 0 MA.ncols Q)) fun N =>
      Sh MC N ∧ (∀ a, P ≤ a → a < m → ∀ b < Q, bitF (N.bit a b) = S MA MB k a b) ∧ ∀ a b, ¬ (P ≤ a ∧ a < m ∧ b < Q) → N.bit a b = MC.bit a b := by
  rw [hA.nrows, hA.ncols]
  have rA : Rep (mzd_window MA P 0 m k) (blk MA P 0 (m - P) k) :=
    window_rep hA.wf rfl (by omega) (by omega) (by rw [hA.nrows]) (by rw [hA.ncols]) (by omega) (by omega)
  have cAw : (mzd_window MA P 0 m k).Clean := window_clean cA rfl (by omega) (by omega) (by rw [hA.nrows]) (Or.inl hA.ncols.symm)
  have rB : Rep (mzd_window MB 0 0 k Q) (blk MB 0 0 k Q) :=
    window_rep hB.wf rfl (by omega) (by omega) (by rw [hB.nrows]) (by rw [hB.ncols]; exact hQ) (by omega) (by omega)
  have cBw : (mzd_window MB 0 0 k Q).Clean := window_clean cB rfl (by omega) (by omega) (by rw [hB.nrows]) (Or.inr (by omega))
  have wW : (mzd_window MC P 0 m Q).Wf := window_wf wC rfl (by omega) (by omega) (by omega) (by omega)
  have nW : (mzd_window MC P 0 m Q).nrows = m - P := window_nrows (by omega)
  have mW : (mzd_window MC P 0 m Q).ncols = Q := Nat.sub_zero Q
  have hm := m4rm_clear htr e hk h0 hk' wW nW mW rA cAw rB cBw
  refine (onWindow_spec (f := fun W => _mzd_mul_m4rm tr e true W (mzd_window MA P 0 m k) (mzd_window MB 0 0 k Q)) wC rfl hm).mono ?_
  intro N ⟨sh, hin, hout⟩
  refine ⟨sh, fun a ha1 ha2 b hb => ?_, fun a b hab => hout a b (by omega)⟩
  have := hin ⟨a - P, by omega⟩ ⟨b, hb⟩
  rw [mul_S rA rB, S_window rfl rfl] at this
  simp only [Nat.zero_add] at this
  rw [show P + (a - P) = a by omega] at this
  rw [this]
  rfl

theorem rem_bulk (htr : Transposes tr) (e : MulEnv) (hk' : k ≤ 2 ^ 24) (wC : MC.Wf) (hr : MC.nrows = m) (hc : MC.ncols = n) (hA : Rep MA A) (cA : MA.Clean)
    (hB : Rep MB B) (cB : MB.Clean) (hQ' : Q % 64 = 0) (hK' : K % 64 = 0) (hQ : Q ≤ n) (hP : P ≤ m) (hlt : K < k) (hS : ∀ a < P, ∀ b < Q, bitF (MC.bit a b) = S MA MB K a b) :
    Ok (onWindow MC 0 0 P Q fun W => mzd_addmul_m4rm tr e W (mzd_window MA 0 K P MA.ncols) (mzd_window MB K 0 MA.ncols Q)) fun N =>
      Sh MC N ∧ (∀ a < P, ∀ b < Q, bitF (N.bit a b) = S MA MB k a b) ∧ ∀ a b, ¬ (a < P ∧ b < Q) → N.bit a b = MC.bit a b := by
  rw [hA.ncols]
  have wW : (mzd_window MC 0 0 P Q).Wf := window_wf wC rfl (by omega) (by omega) (by omega) (by omega)
  have nW : (mzd_window MC 0 0 P Q).nrows = P := by rw [window_nrows (by omega)]; omega
  have mW : (mzd_window MC 0 0 P Q).ncols = Q := Nat.sub_zero Q
  have rA : Rep (mzd_window MA 0 K P k) (blk MA 0 K P (k - K)) :=
    window_rep hA.wf hK' (by omega) (by omega) (by rw [hA.nrows]; exact hP) (by rw [hA.ncols]) (by omega) (by omega)
  have cAw : (mzd_window MA 0 K P k).Clean := window_clean cA hK' (by omega) (by omega) (by rw [hA.nrows]; exact hP) (Or.inl hA.ncols.symm)
  have rB : Rep (mzd_window MB K 0 k Q) (blk MB K 0 (k - K) Q) :=
    window_rep hB.wf rfl (by omega) (by omega) (by rw [hB.nrows]) (by rw [hB.ncols]; exact hQ) (by omega) (by omega)
  have cBw : (mzd_window MB K 0 k Q).Clean := window_clean cB rfl (by omega) (by omega) (by rw [hB.nrows]) (Or.inr (by omega))
  by_cases he : Q = 0 ∨ P = 0
  · have hf : Ok (mzd_addmul_m4rm tr e (mzd_window MC 0 0 P Q) (mzd_window MA 0 K P k) (mzd_window MB K 0 k Q)) fun N =>
        Wr (mzd_window MC 0 0 P Q) N (blk (mzd_window MC 0 0 P Q) 0 0 P Q) := by
      unfold mzd_addmul_m4rm
      rw [if_pos (by rw [nW, mW]; exact he), Ok.pure_iff]
      exact Wr.self _ _ _
    refine (onWindow_spec (f := fun W => mzd_addmul_m4rm tr e W (mzd_window MA 0 K P k) (mzd_window MB K 0 k Q)) wC rfl hf).mono ?_
    intro N ⟨sh, _, hout⟩
    exact ⟨sh, fun a ha b hb => by omega, fun a b hab => hout a b (by omega)⟩
  · have hf : Ok (mzd_addmul_m4rm tr e (mzd_window MC 0 0 P Q) (mzd_window MA 0 K P k) (mzd_window MB K 0 k Q)) fun N =>
        Wr (mzd_window MC 0 0 P Q) N (blk (mzd_window MC 0 0 P Q) 0 0 P Q + blk MA 0 K P (k - K) * blk MB K 0 (k - K) Q) := by
      unfold mzd_addmul_m4rm
      rw [if_neg (by rw [nW, mW]; exact he), if_neg (by rw [rA.ncols, rB.nrows]; simp), if_neg (by rw [nW, mW, rA.nrows, rB.ncols]; simp)]
      exact m4rm_wr htr e false (by omega) (by omega) (by omega) wW nW mW rA cAw rB cBw
    refine (onWindow_spec (f := fun W => mzd_addmul_m4rm tr e W (mzd_window MA 0 K P k) (mzd_window MB K 0 k Q)) wC rfl hf).mono ?_
    intro N ⟨sh, hin, hout⟩
    refine ⟨sh, fun a ha b hb => ?_, fun a b hab => hout a b (by omega)⟩
    have := hin ⟨a, ha⟩ ⟨b, hb⟩
    rw [Matrix.add_apply, mul_S rA rB, S_window hK' rfl] at this
    unfold blk at this
    simp only [Nat.zero_add, window_bit MC (show 0 % 64 = 0 from rfl)] at this
    rw [this, hS a ha b hb, ← S_add, show K + (k - K) = k by omega]

theorem rem_spec (htr : Transposes tr) (e : Nat → MulEnv) (hk : 0 < k) (hk' : k ≤ 2 ^ 24) (wC : MC.Wf) (hr : MC.nrows = m) (hc : MC.ncols = n) (hA : Rep MA A) (cA : MA.Clean)
    (hB : Rep MB B) (cB : MB.Clean) (hP : P ≤ m) (hK : K ≤ k) (hQ : Q ≤ n) (hK' : K % 64 = 0) (hQ' : Q % 64 = 0) (h0 : Q = 0 → P = m)
    (hS : ∀ a < P, ∀ b < Q, bitF (MC.bit a b) = S MA MB K a b) : Ok (mulRem tr e P K Q MC MA MB) fun N => Wr MC N (A * B) := by
  unfold mulRem
  refine Ok.bind (P := fun N => Sh MC N ∧ (∀ a < m, ∀ b, Q ≤ b → b < n → bitF (N.bit a b) = S MA MB k a b) ∧
    ∀ a b, ¬ (a < m ∧ Q ≤ b ∧ b < n) → N.bit a b = MC.bit a b) ?_ ?_
  · split
    · rename_i hlt
      rw [hB.ncols] at hlt
      exact rem_col htr (e 0) hk hk' wC hr hc hA cA hB cB hQ' hlt
    · rename_i hge
      rw [hB.ncols] at hge
      rw [Ok.pure_iff]
      exact ⟨Sh.refl MC, fun a ha b hb1 hb2 => by omega, fun a b _ => rfl⟩
  intro N1 ⟨sh1, in1, out1⟩
  refine Ok.bind (P := fun N => Sh MC N ∧ (∀ a < m, ∀ b, Q ≤ b → b < n → bitF (N.bit a b) = S MA MB k a b) ∧
    (∀ a, P ≤ a → a < m → ∀ b < Q, bitF (N.bit a b) = S MA MB k a b) ∧ (∀ a < P, ∀ b < Q, bitF (N.bit a b) = S MA MB K a b) ∧
    ∀ a b, ¬ (a < m ∧ b < n) → N.bit a b = MC.bit a b) ?_ ?_
  · split
    · rename_i hlt
      rw [hA.nrows] at hlt
      refine (rem_row htr (e 1) hk hk' (sh1.wf wC) (by rw [sh1.nrows, hr]) (by rw [sh1.ncols, hc]) hA cA hB cB hQ' (by omega) hQ hlt).mono ?_
      intro N ⟨sh, hin, hout⟩
      refine ⟨sh1.trans sh, fun a ha b hb1 hb2 => ?_, hin, fun a ha b hb => ?_, fun a b hab => ?_⟩
      · rw [hout a b (by omega)]
        exact in1 a ha b hb1 hb2
      · rw [hout a b (by omega), out1 a b (by omega)]
        exact hS a ha b hb
      · rw [hout a b (by omega), out1 a b (by omega)]
    · rename_i hge
      rw [hA.nrows] at hge
      rw [Ok.pure_iff]
      refine ⟨sh1, in1, fun a ha1 ha2 b hb => by omega, fun a ha b hb => ?_, fun a b hab => out1 a b (by omega)⟩
      rw [out1 a b (by omega)]
      exact hS a ha b hb
  intro N2 ⟨sh2, in2, in2', in2'', out2⟩
  have fin : ∀ N, Sh N2 N ∧ (∀ a < P, ∀ b < Q, bitF (N.bit a b) = S MA MB k a b) ∧ (∀ a b, ¬ (a < P ∧ b < Q) → N.bit a b = N2.bit a b) → Wr MC N (A * B) := by
    intro N ⟨sh, hin, hout⟩
    refine ⟨sh2.trans sh, fun i j => ?_, fun a b hab => ?_⟩
    · rw [mul_S hA hB]
      have hi := i.2
      have hj := j.2
      by_cases h1 : i.val < P
      · by_cases h2 : j.val < Q
        · exact hin i h1 j h2
        · rw [hout i j (by omega)]
          exact in2 i hi j (by omega) hj
      · rw [hout i j (by omega)]
        by_cases h2 : j.val < Q
        · exact in2' i (by omega) hi j h2
        · exact in2 i hi j (by omega) hj
    · rw [hout a b (by omega), out2 a b hab]
  split
  · rename_i hlt
    rw [hA.ncols] at hlt
    exact (rem_bulk htr (e 2) hk' (sh2.wf wC) (by rw [sh2.nrows, hr]) (by rw [sh2.ncols, hc]) hA cA hB cB hQ' hK' hQ hP hlt in2'').mono fin
  · rename_i hge
    rw [hA.ncols] at hge
    rw [Ok.pure_iff]
    have : K = k := by omega
    exact fin N2 ⟨Sh.refl _, fun a ha b hb => by rw [← this]; exact in2'' a ha b hb, fun _ _ _ => rfl⟩

end

theorem empty_wr {M : Mzd} {m n : Nat} (X : Matrix (Fin m) (Fin n) (ZMod 2)) (h : m = 0 ∨ n = 0) : Wr M M X :=
  ⟨Sh.refl M, fun i j => by have := i.2; have := j.2; omega, fun _ _ _ => rfl⟩

theorem half_cases {a p : Nat} (h : a < 2 * p) : ∃ u < 2, ∃ i : Fin p, a = u * p + i := by
  by_cases h : a < p
  · exact ⟨0, by omega, ⟨a, h⟩, by simp⟩
  · exact ⟨1, by omega, ⟨a - p, by omega⟩, by simp; omega⟩

theorem two_S {MA MB : Mzd} {p k q : Nat} (wA : Room MA p k) (wB : Room MB k q) {u v : Nat} (hu : u < 2) (hv : v < 2) {i : Fin p} {j : Fin q} :
    (qb MA p k u 0 * qb MB k q 0 v + qb MA p k u 1 * qb MB k q 1 v) i j = S MA MB (2 * k) (u * p + i) (v * q + j) := by
  have rA : ∀ t < 2, Rep (quad MA p k u t) (qb MA p k u t) := fun t ht => (quad_rep wA.wf wA.mod hu ht wA.nr wA.nc).1
  have rB : ∀ t < 2, Rep (quad MB k q t v) (qb MB k q t v) := fun t ht => (quad_rep wB.wf wB.mod ht hv wB.nr wB.nc).1
  have hvq : v * q % 64 = 0 := by rw [Nat.mul_mod, wB.mod]; simp
  rw [Matrix.add_apply, mul_S (rA 0 (by omega)) (rB 0 (by omega)), mul_S (rA 1 (by omega)) (rB 1 (by omega))]
  unfold quad
  rw [S_window (by simp) hvq, S_window (by simpa using wA.mod) hvq, Nat.two_mul, S_add]
  unfold S
  simp only [Nat.zero_mul, Nat.zero_add, Nat.one_mul]

theorem mul_even {tr : Bool → Mzd → C Mzd} (htr : ∀ b, Transposes (tr b)) {c : Nat} (hc : 64 ≤ c) (hc64 : c % 64 = 0) : ∀ (fuel : Nat) (e : List Nat → MulEnv) (win : Bool) (m k n : Nat),
    m < fuel → (0 < k ∨ m = 0 ∨ n = 0) → k ≤ 2 ^ 24 → Good c m k n → MulsTo (_mzd_mul_even tr c fuel e win) m k n := by
  intro fuel
  induction fuel with
  | zero => intro e win m k n h; omega
  | succ fuel ih =>
    intro e win m k n hf h0 hk' hg MC MA MB A B wC hr hcc hA cA hB cB
    unfold _mzd_mul_even
    rw [hr, hcc, hA.nrows, hA.ncols, hB.ncols]
    by_cases hz : m = 0 ∨ n = 0
    · rw [if_pos hz, Ok.pure_iff]
      exact empty_wr _ hz
    rw [if_neg hz]
    have hk : 0 < k := by omega
    have hn0 : 0 < n := by omega
    by_cases hcl : (closer m c || closer k c || closer n c) = true
    · rw [if_pos hcl]
      cases win
      · rw [if_neg (by simp)]
        refine (m4rm_wr (htr false) (e []) true hk hn0 hk' wC hr hcc hA cA hB cB).mono fun N h => ?_
        rw [if_pos rfl, zero_add] at h
        exact h
      · rw [if_pos rfl]
        refine Ok.bind (copy_new hk hA) fun MA' ⟨hA', cA'⟩ => ?_
        refine Ok.bind (copy_new hn0 hB) fun MB' ⟨hB', cB'⟩ => ?_
        refine Ok.bind (m4rm_wr (htr false) (e []) false hk hn0 hk' (init_wf m n) (show (mzd_init m n).nrows = m from rfl) (show (mzd_init m n).ncols = n from rfl) hA' cA' hB' cB')
          fun D h => ?_
        have hz' : (if (false : Bool) = true then (0 : Matrix (Fin m) (Fin n) (ZMod 2)) else blk (mzd_init m n) 0 0 m n) = 0 := by
          rw [if_neg (by simp)]
          funext i j
          unfold blk
          rw [init_bit]
          rfl
        rw [hz', zero_add] at h
        exact copy_wr wC hn0 hr hcc (h.rep (init_wf m n) rfl rfl)
    · rw [if_neg hcl]
      simp only []
      unfold closer at hcl
      simp only [Bool.or_eq_true, decide_eq_true_eq, not_or, Nat.not_lt] at hcl
      obtain ⟨⟨hm1, hk1⟩, hn1⟩ := hcl
      have hcase := mult_cases (m := m) (k := k) (n := n) hc
      have hsmall : min (min m n) k < 128 → multOf c (min (min m n) k / 2) 64 = 64 := fun h => mult_small (by omega)
      generalize hmu : multOf c (min (min m n) k / 2) 64 = mu at hcase hsmall
      have hpos : 128 ≤ min (min m n) k → 0 < halfOf k mu := fun h => halfOf_pos (by omega) (by omega)
      have hposn : 128 ≤ min (min m n) k → 0 < halfOf n mu := fun h => halfOf_pos (by omega) (by omega)
      have lp := halfOf_le m mu
      have lk := halfOf_le k mu
      have ln := halfOf_le n mu
      have mk := halfOf_mod k mu
      have mn := halfOf_mod n mu
      unfold Good at hg
      have g1 : 0 < halfOf k mu ∨ halfOf m mu = 0 ∨ halfOf n mu = 0 := by
        by_cases h : min (min m n) k < 128
        · rw [hsmall h, halfOf_64, halfOf_64, halfOf_64]
          omega
        · exact Or.inl (hpos (by omega))
      have g2 : 2 * halfOf n mu = 0 → 2 * halfOf m mu = m := by
        by_cases h : min (min m n) k < 128
        · rw [hsmall h, halfOf_64, halfOf_64]
          omega
        · have := hposn (by omega)
          omega
      have hb := blocks_spec (mul := fun i => _mzd_mul_even tr c fuel (fun l => e (i :: l)) true) (p := halfOf m mu) (k := halfOf k mu) (q := halfOf n mu)
        (fun i => ih (fun l => e (i :: l)) true _ _ _ (by omega) g1 (by omega) (good_of_mod mk mn)) ⟨wC, mn, by omega, by omega⟩
        ⟨hA.wf, mk, by rw [hA.nrows]; omega, by rw [hA.ncols]; omega⟩ ⟨hB.wf, mn, by rw [hB.nrows]; omega, by rw [hB.ncols]; omega⟩
      refine Ok.bind hb fun N hN => ?_
      have wN := hN.sh.wf wC
      refine (rem_spec (htr true) (fun i => e [7 + i]) hk hk' wN (by rw [hN.sh.nrows, hr]) (by rw [hN.sh.ncols, hcc]) hA cA hB cB lp lk ln (by omega) (by omega) g2 ?_).mono ?_
      · intro a ha b hb
        obtain ⟨u, hu, i, rfl⟩ := half_cases ha
        obtain ⟨v, hv, j, rfl⟩ := half_cases hb
        rw [← two_S ⟨hA.wf, mk, by rw [hA.nrows]; omega, by rw [hA.ncols]; omega⟩ ⟨hB.wf, mn, by rw [hB.nrows]; omega, by rw [hB.ncols]; omega⟩ hu hv]
        exact congrFun (congrFun (hN.mat u hu v hv) i) j
      · intro N' h'
        refine ⟨hN.sh.trans h'.sh, h'.mat, fun a b hab => ?_⟩
        rw [h'.out a b hab, hN.out a b (by omega)]

theorem naive_zero {D A B : Mzd} (h : D.nrows = 0) : _mzd_addmul_naive D A B = .ok D := by
  unfold _mzd_addmul_naive
  rw [h]
  rfl

theorem copy_zero {D A : Mzd} (h1 : A.nrows = 0) (h2 : A.ncols = 0) : mzd_copy D A = .ok D := by
  unfold mzd_copy
  rw [if_neg (by omega), h1]
  rfl

/-- The matrix without rows and columns can be transposed. -/
def TransposesZero (tr : Mzd → C Mzd) : Prop := ∀ {M : Mzd}, M.nrows = 0 → M.ncols = 0 → ∃ N, tr M = .ok N

theorem m4rm_zero {tr : Mzd → C Mzd} (htr : TransposesZero tr) (e : MulEnv) (clear : Bool) {D A B : Mzd} (h1 : D.nrows = 0) (h2 : D.ncols = 0) (h3 : A.nrows = 0) (h4 : B.nrows = 0)
    (h5 : B.ncols = 0) : _mzd_mul_m4rm tr e clear D A B = .ok D := by
  unfold _mzd_mul_m4rm mzd_mul_naive mzd_addmul_naive
  obtain ⟨N, hN⟩ := htr h4 h5
  have hs : ¬ (D.nrows ≠ A.nrows ∨ D.ncols ≠ B.ncols) := by omega
  rw [if_pos (show B.ncols < 54 ∨ A.nrows < 16 by omega), if_neg hs, if_neg hs, if_pos (show B.ncols < 54 by omega), if_pos (show B.ncols < 54 by omega), hN]
  cases clear
  · rw [if_neg (by simp)]
    exact naive_zero h1
  · rw [if_pos rfl, C_ok_bind]
    unfold _mzd_mul_naive
    rw [h1]
    exact naive_zero h1

theorem sqr_even_zero {tr : Bool → Mzd → C Mzd} (htr : ∀ b, TransposesZero (tr b)) {c : Nat} (hc : 64 ≤ c) (fuel : Nat) (e : List Nat → MulEnv) (win : Bool) :
    SqrsTo (_mzd_sqr_even tr c (fuel + 1) e win) 0 := by
  intro MC MA A wC hr hcc hA cA
  have : _mzd_sqr_even tr c (fuel + 1) e win MC MA = .ok MC := by
    unfold _mzd_sqr_even
    rw [hA.nrows, if_pos (by unfold closer; simp; omega)]
    cases win
    · rw [if_neg (by simp)]
      exact m4rm_zero (htr false) _ _ hr hcc hA.nrows hA.nrows hA.ncols
    · rw [if_pos rfl]
      unfold mzd_copy_new
      rw [copy_zero hA.nrows hA.ncols, C_ok_bind, m4rm_zero (htr false) _ _ (show (mzd_init 0 0).nrows = 0 from rfl) (show (mzd_init 0 0).ncols = 0 from rfl) (show (mzd_init MA.nrows MA.ncols).nrows = 0 from hA.nrows)
        (show (mzd_init MA.nrows MA.ncols).nrows = 0 from hA.nrows) (show (mzd_init MA.nrows MA.ncols).ncols = 0 from hA.ncols), C_ok_bind]
      exact copy_zero rfl rfl
  rw [this, Ok.ok_iff]
  exact empty_wr _ (Or.inl rfl)

theorem sqr_even {tr : Bool → Mzd → C Mzd} (htr : ∀ b, Transposes (tr b)) (htr0 : ∀ b, TransposesZero (tr b)) {c : Nat} (hc : 64 ≤ c) (hc64 : c % 64 = 0) :
    ∀ (fuel : Nat) (e : List Nat → MulEnv) (win : Bool) (m : Nat),
    m < fuel → m ≤ 2 ^ 24 → Good c m m m → SqrsTo (_mzd_sqr_even tr c fuel e win) m := by
  intro fuel
  induction fuel with
  | zero => intro e win m h; omega
  | succ fuel ih =>
    intro e win m hf hk' hg MC MA A wC hr hcc hA cA
    by_cases hz : m = 0
    · subst hz
      exact sqr_even_zero htr0 hc fuel e win wC hr hcc hA cA
    unfold _mzd_sqr_even
    rw [hA.nrows]
    have hk : 0 < m := by omega
    by_cases hcl : closer m c = true
    · rw [if_pos hcl]
      cases win
      · rw [if_neg (by simp)]
        exact m4rm_clear (htr false) (e []) hk hk hk' wC hr hcc hA cA hA cA
      · rw [if_pos rfl]
        refine Ok.bind (copy_new hk hA) fun MA' ⟨hA', cA'⟩ => ?_
        refine Ok.bind (m4rm_wr (htr false) (e []) false hk hk hk' (init_wf m m) (show (mzd_init m m).nrows = m from rfl) (show (mzd_init m m).ncols = m from rfl) hA' cA' hA' cA')
          fun D h => ?_
        have hz' : (if (false : Bool) = true then (0 : Matrix (Fin m) (Fin m) (ZMod 2)) else blk (mzd_init m m) 0 0 m m) = 0 := by
          rw [if_neg (by simp)]
          funext i j
          unfold blk
          rw [init_bit]
          rfl
        rw [hz', zero_add] at h
        exact copy_wr wC hk hr hcc (h.rep (init_wf m m) rfl rfl)
    · rw [if_neg hcl]
      simp only []
      unfold closer at hcl
      simp only [decide_eq_true_eq, Nat.not_lt] at hcl
      have hcase := mult_cases (m := m) (k := m) (n := m) hc
      rw [Nat.min_self, Nat.min_self] at hcase
      have hsmall : m < 128 → multOf c (m / 2) 64 = 64 := fun h => mult_small (by omega)
      generalize hmu : multOf c (m / 2) 64 = mu at hcase hsmall
      have hpos : 128 ≤ m → 0 < halfOf m mu := fun h => halfOf_pos (by omega) (by omega)
      have lp := halfOf_le m mu
      have mk := halfOf_mod m mu
      unfold Good at hg
      have hm : 0 < halfOf m mu := hpos (by omega)
      have wA : Room MA (halfOf m mu) (halfOf m mu) := ⟨hA.wf, mk, by rw [hA.nrows]; omega, by rw [hA.ncols]; omega⟩
      have hb := sqr_blocks_spec (mul := fun i => _mzd_mul_even tr c fuel (fun l => e (i :: l)) true) (sqr := fun i => _mzd_sqr_even tr c fuel (fun l => e (i :: l)) true)
        (fun i => mul_even htr hc hc64 fuel (fun l => e (i :: l)) true _ _ _ (by omega) (Or.inl hm) (by omega) (good_of_mod mk mk))
        (fun i => ih (fun l => e (i :: l)) true _ (by omega) (by omega) (good_of_mod mk mk)) ⟨wC, mk, by omega, by omega⟩ wA
      refine Ok.bind hb fun N hN => ?_
      have wN := hN.sh.wf wC
      refine (rem_spec (htr true) (fun i => e [7 + i]) hk hk' wN (by rw [hN.sh.nrows, hr]) (by rw [hN.sh.ncols, hcc]) hA cA hA cA lp lp lp (by omega) (by omega) (by omega) ?_).mono ?_
      · intro a ha b hb
        obtain ⟨u, hu, i, rfl⟩ := half_cases ha
        obtain ⟨v, hv, j, rfl⟩ := half_cases hb
        rw [← two_S wA wA hu hv]
        exact congrFun (congrFun (hN.mat u hu v hv) i) j
      · intro N' h'
        refine ⟨hN.sh.trans h'.sh, h'.mat, fun a b hab => ?_⟩
        rw [h'.out a b hab, hN.out a b (by omega)]

end WB.m4w
