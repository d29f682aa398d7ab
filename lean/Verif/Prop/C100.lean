import Verif.Prop.C101

/-!
# C100 — the product of two matrices in M4RI (`/repo/test/github1_M4RI/src/m4ri/brilliantrussian.c`)
-/
namespace WB.m4w

open WB.cmp (Mem)

/-- C100: `mzd_mul_m4rm(NULL, A, B, k)` is the product of the two matrices and its unused bits are zero, for all sizes and for every
value of `k`, every address of the result and every content of the uninitialised memory. -/
theorem C100_product (junk : Nat → Word) (mb : Mzd → Mzd → C Mzd) (e : MulEnv) {MA MB : Mzd} {r k c : Nat} {A : Matrix (Fin r) (Fin k) (ZMod 2)}
    {B : Matrix (Fin k) (Fin c) (ZMod 2)} (hk : 0 < k) (hc : 0 < c) (hf : c < 54 → Fits k c) (hA : Rep MA A) (cA : MA.Clean) (hB : Rep MB B) (cB : MB.Clean) :
    ∃ D, mzd_mul_m4rm (mzd_transpose junk mb) e MA MB = .ok D ∧ Rep D (A * B) ∧ D.Clean :=
  mul_m4rm (transposes junk mb) e hk hc hf hA cA hB cB

/-- C100: two different choices of `k`, of the address and of the uninitialised memory give the same words. -/
theorem C100_choice (junk junk' : Nat → Word) (mb mb' : Mzd → Mzd → C Mzd) (e e' : MulEnv) {MA MB : Mzd} {r k c : Nat} {A : Matrix (Fin r) (Fin k) (ZMod 2)}
    {B : Matrix (Fin k) (Fin c) (ZMod 2)} (hk : 0 < k) (hc : 0 < c) (hf : c < 54 → Fits k c) (hA : Rep MA A) (cA : MA.Clean) (hB : Rep MB B) (cB : MB.Clean) :
    ∃ D D', mzd_mul_m4rm (mzd_transpose junk mb) e MA MB = .ok D ∧ mzd_mul_m4rm (mzd_transpose junk' mb') e' MA MB = .ok D' ∧
      ∀ i < r, ∀ j < D.width, D.word i j = D'.word i j := by
  obtain ⟨D, h1, h2, h3⟩ := C100_product junk mb e hk hc hf hA cA hB cB
  obtain ⟨D', h4, h5, h6⟩ := C100_product junk' mb' e' hk hc hf hA cA hB cB
  refine ⟨D, D', h1, h4, fun i hi j hj => bit_ext fun b hb => ?_⟩
  have w : D'.width = D.width := by unfold Mzd.width; rw [h2.ncols, h5.ncols]
  have e1 : (D.word i j).getLsbD b = D.bit i (64 * j + b) := by
    unfold Mzd.bit; rw [show (64 * j + b) / 64 = j by omega, show (64 * j + b) % 64 = b by omega]
  have e2 : (D'.word i j).getLsbD b = D'.bit i (64 * j + b) := by
    unfold Mzd.bit; rw [show (64 * j + b) / 64 = j by omega, show (64 * j + b) % 64 = b by omega]
  rw [e1, e2]
  by_cases hb' : 64 * j + b < c
  · exact bitF_inj.1 ((h2.bit ⟨i, hi⟩ ⟨_, hb'⟩).trans (h5.bit ⟨i, hi⟩ ⟨_, hb'⟩).symm)
  · rw [h3 i (by rw [h2.nrows]; exact hi) _ (by rw [h2.ncols]; omega) (by omega), h6 i (by rw [h5.nrows]; exact hi) _ (by rw [h5.ncols]; omega) (by omega)]

/-- C100: matrices whose sizes do not match make the program abort. -/
theorem C100_dimension (tr : Mzd → C Mzd) (e : MulEnv) {MA MB : Mzd} (h : MA.ncols ≠ MB.nrows) : mzd_mul_m4rm tr e MA MB = .error .abort := if_pos h

/-- C100: so do factors without common dimension, when the second one has 1 to 53 columns (their product is the zero matrix). -/
theorem C100_empty (junk : Nat → Word) (mb : Mzd → Mzd → C Mzd) (e : MulEnv) {MA MB : Mzd} (h1 : MA.ncols = 0) (h2 : MB.nrows = 0) (h3 : 0 < MB.ncols)
    (h4 : MB.ncols < 54) : mzd_mul_m4rm (mzd_transpose junk mb) e MA MB = .error .abort := by
  unfold mzd_mul_m4rm
  rw [if_neg (by omega)]
  simp only []
  rw [if_pos (Or.inl h4)]
  unfold mzd_mul_naive
  rw [if_neg (by simp [mzd_init]), if_pos h4, C101_empty_violated junk mb (Or.inl ⟨h2, h3⟩)]
  rfl

/-- C100: `m4ri_parity64` returns the parities of 64 words. -/
theorem C100_parity (buf : Nat → Word) (p : Fin 64) : bitF ((m4ri_parity64 buf).getLsbD p) = ∑ t : Fin 64, bitF ((buf p).getLsbD t) := by
  rw [parity64 buf p.2, bitF_xsum]

/-- C100: the code book for `l` bits lists all numbers below `2^l`, each of them once and beginning with 0, and two neighbours differ in the
one bit that is given. -/
theorem C100_codebook {l : Nat} (h1 : 1 ≤ l) (h2 : l ≤ 16) : ∃ ord inc, m4ri_codebook l = .ok (ord, inc) ∧ ord.cell 0 = 0 ∧
    (∀ i < 2 ^ l, ord.cell i < 2 ^ l) ∧ (∀ x < 2 ^ l, ∃ i < 2 ^ l, ord.cell i = x) ∧ (∀ i < 2 ^ l, ∀ j < 2 ^ l, ord.cell i = ord.cell j → i = j) ∧
    ∀ i, 0 < i → i < 2 ^ l → inc.cell (i - 1) < l ∧ ord.cell i = ord.cell (i - 1) ^^^ 2 ^ inc.cell (i - 1) := by
  unfold m4ri_codebook
  rw [if_pos ⟨h1, h2⟩]
  obtain ⟨⟨ord, inc⟩, e1, ⟨e2, e3⟩, e4, e5⟩ := build_code l
  simp only [] at e2 e3 e4 e5
  refine ⟨ord, inc, e1, e3 0 (Nat.two_pow_pos l), fun i hi => by rw [e3 i hi]; exact gray_lt hi, fun x hx => ?_, fun i hi j hj h => ?_, fun i h0 hi => ?_⟩
  · obtain ⟨i, hi, h⟩ := gray_surj hx
    exact ⟨i, hi, by rw [e3 i hi, h]⟩
  · rw [e3 i hi, e3 j hj] at h
    exact gray_inj h
  · rw [e3 i hi, e3 (i - 1) (by omega)]
    exact e5 i h0 hi

/-- C100: the table that `mzd_make_table` makes for the rows `r, …, r + k - 1` contains, at the place given by the index, every sum of
them, from column `c` on. -/
theorem C100_table {M : Mzd} (hM : M.Wf) {r c k : Nat} (hk : k ≤ 16) (hr : r + k ≤ M.nrows) (hc : c < M.ncols) (junk : Nat → Nat) :
    ∃ t, mzd_make_table M r c k ⟨mzd_init (2 ^ k) M.ncols, ⟨2 ^ k, junk⟩⟩ = .ok t ∧ ∀ x < 2 ^ k, t.L.cell x < 2 ^ k ∧
      ∀ j, c ≤ j → j < M.ncols → bitF (t.T.bit (t.L.cell x) j) = ∑ l : Fin k, if x.testBit l then bitF (M.bit (r + l) j) else 0 := by
  have hcan : CanTab M k 0 ⟨mzd_init (2 ^ k) M.ncols, ⟨2 ^ k, junk⟩⟩ :=
    ⟨init_wf _ _, rfl, Nat.le_refl _, Nat.le_refl _, fun j _ _ => init_bit _ _ _ _⟩
  obtain ⟨t, h1, h2, -⟩ := make_table hM hcan (Nat.zero_le _) hk hr hc
  refine ⟨t, h1, fun x hx => ⟨h2.lt x hx, fun j hj1 hj2 => ?_⟩⟩
  rw [h2.row x hx j (by omega) (lt_width hj2), decide_eq_true ⟨hj1, hj2⟩, Bool.true_and, bitF_xsum]
  refine Finset.sum_congr rfl fun l _ => ?_
  cases x.testBit l <;> simp [bitF]

/-! ## Examples -/

/-- The second factor of the examples: 130 × 60. -/
def exB : Matrix (Fin 130) (Fin 60) (ZMod 2) := fun i j => bitF (decide (((i : Nat) * 7 + j * 3 + i * j) % 5 < 2))

/-- Its words. -/
def exN : Mzd := pack 130 60 fun i j => decide ((i * 7 + j * 3 + i * j) % 5 < 2)

theorem exN_rep : Rep exN exB := pack_rep fun _ _ => rfl

/-- The tables are used: 60 columns and 70 rows. -/
example : ∃ D, mzd_mul_m4rm (mzd_transpose (fun _ => 7#64) fun D _ => .ok D) ⟨fun _ _ => 5, true, 4⟩ exM exN = .ok D ∧ Rep D (exA * exB) ∧ D.Clean :=
  C100_product _ _ _ (by decide) (by decide) (fun h => absurd h (by decide)) exM_rep (pack_clean _ _ _) exN_rep (pack_clean _ _ _)

/-- The transpose is used: the second factor has 33 columns. -/
example : ∃ D, mzd_mul_m4rm (mzd_transpose (fun _ => 7#64) fun D _ => .ok D) ⟨fun _ _ => 5, true, 4⟩ exM (pack 130 33 fun i j => decide (i * j % 3 = 1)) = .ok D ∧
    Rep D (exA * Matrix.of fun (i : Fin 130) (j : Fin 33) => bitF (decide ((i : Nat) * j % 3 = 1))) ∧ D.Clean :=
  C100_product _ _ _ (by decide) (by decide) (fun _ => by unfold Fits; decide) exM_rep (pack_clean _ _ _) (pack_rep fun _ _ => rfl) (pack_clean _ _ _)

/-- The program is run. -/
example : (match mzd_mul_m4rm (mzd_transpose (fun _ => 7#64) fun D _ => .ok D) ⟨fun _ _ => 5, true, 4⟩ (pack 3 4 fun i j => decide (i ≤ j)) (pack 4 2 fun i j => decide ((i + j) % 3 = 0)) with
    | .ok D => [D.bit 0 0, D.bit 0 1, D.bit 1 0, D.bit 1 1, D.bit 2 0, D.bit 2 1] | .error _ => []) = [false, true, true, true, true, true] := by decide +kernel

example : mzd_mul_m4rm (mzd_transpose (fun _ => 7#64) fun D _ => .ok D) ⟨fun _ _ => 5, true, 4⟩ exN exM = .error .abort := C100_dimension _ _ (by decide)

example : mzd_mul_m4rm (mzd_transpose (fun _ => 7#64) fun D _ => .ok D) ⟨fun _ _ => 5, true, 4⟩ (pack 2 0 fun _ _ => true) (pack 0 3 fun _ _ => true) = .error .abort :=
  C100_empty _ _ _ rfl rfl (by decide) (by decide)

example : (m4ri_parity64 fun k => BitVec.ofNat 64 (2 ^ k - 1)).toNat = 0xAAAAAAAAAAAAAAAA := by decide +kernel

example : ∃ t, mzd_make_table exM 10 70 5 ⟨mzd_init (2 ^ 5) 130, ⟨2 ^ 5, fun _ => 9⟩⟩ = .ok t ∧ ∀ x < 2 ^ 5, t.L.cell x < 2 ^ 5 ∧
      ∀ j, 70 ≤ j → j < 130 → bitF (t.T.bit (t.L.cell x) j) = ∑ l : Fin 5, if x.testBit l then bitF (exM.bit (10 + l) j) else 0 :=
  C100_table exM_rep.wf (by decide) (by decide) (by decide) _

end WB.m4w
