import Verif.Model.M4riDensity
import Verif.Proof.M4riTri
import Verif.Proof.Parity

/-!
# The density of a matrix (helper lemmas)
-/
namespace WB.m4w

/-- One step of adding neighbouring groups of bits. -/
def stg {w : Nat} (p : BitVec w × Nat) (x : BitVec w) : BitVec w := (x &&& p.1) + ((x >>> p.2) &&& p.1)

/-- Several steps. -/
def run {w : Nat} (L : List (BitVec w × Nat)) (x : BitVec w) : BitVec w := L.foldl (fun x p => stg p x) x

theorem append_add {w : Nat} (a b c d : BitVec w) (h : b.toNat + d.toNat < 2 ^ w) : (a ++ b) + (c ++ d) = (a + c) ++ (b + d) := by
  apply BitVec.eq_of_toNat_eq
  have hb := b.isLt
  have hd := d.isLt
  rw [BitVec.toNat_add, BitVec.toNat_append, BitVec.toNat_append, BitVec.toNat_append, BitVec.toNat_add, BitVec.toNat_add]
  rw [← Nat.shiftLeft_add_eq_or_of_lt hb, ← Nat.shiftLeft_add_eq_or_of_lt hd, ← Nat.shiftLeft_add_eq_or_of_lt (Nat.mod_lt _ (Nat.two_pow_pos w)), Nat.mod_eq_of_lt h, Nat.pow_add]
  simp only [Nat.shiftLeft_eq]
  rw [show a.toNat * 2 ^ w + b.toNat + (c.toNat * 2 ^ w + d.toNat) = (b.toNat + d.toNat) + 2 ^ w * (a.toNat + c.toNat) by ring, Nat.mod_mul, Nat.add_mul_mod_self_left, Nat.mod_eq_of_lt h,
    Nat.add_mul_div_left _ _ (Nat.two_pow_pos w), Nat.div_eq_of_lt h, Nat.zero_add, Nat.add_comm, Nat.mul_comm]

theorem cntStg_append {w : Nat} (m : BitVec w) (s : Nat) (hm : 2 * m.toNat < 2 ^ w) (ht : ∀ i, w ≤ i + s → m.getLsbD i = false) (a b : BitVec w) :
    stg (m ++ m, s) (a ++ b) = stg (m, s) a ++ stg (m, s) b := by
  unfold stg
  have h1 : (a ++ b) &&& (m ++ m) = (a &&& m) ++ (b &&& m) := by
    apply BitVec.eq_of_getLsbD_eq
    intro i _
    simp only [BitVec.getLsbD_and, BitVec.getLsbD_append]
    split <;> rfl
  have h2 : ((a ++ b) >>> s) &&& (m ++ m) = ((a >>> s) &&& m) ++ ((b >>> s) &&& m) := by
    apply BitVec.eq_of_getLsbD_eq
    intro i _
    simp only [BitVec.getLsbD_and, BitVec.getLsbD_append, BitVec.getLsbD_ushiftRight]
    by_cases hi : i < w
    · simp only [hi, if_true]
      by_cases hs : s + i < w
      · simp only [hs, if_true]
      · rw [ht i (by omega), Bool.and_false, Bool.and_false]
    · simp only [hi, if_false, show ¬ s + i < w by omega, show s + i - w = s + (i - w) by omega]
  dsimp only
  rw [h1, h2]
  refine append_add _ _ _ _ ?_
  have e1 : (b &&& m).toNat ≤ m.toNat := by rw [BitVec.toNat_and]; exact Nat.and_le_right
  have e2 : ((b >>> s) &&& m).toNat ≤ m.toNat := by rw [BitVec.toNat_and]; exact Nat.and_le_right
  omega

theorem cntStg_last {w : Nat} (a b : BitVec w) (h : a.toNat + b.toNat < 2 ^ w) : (stg ((0#w) ++ BitVec.allOnes w, w) (a ++ b)).toNat = a.toNat + b.toNat := by
  have h1 : (a ++ b) &&& ((0#w) ++ BitVec.allOnes w) = (0#w) ++ b := by
    apply BitVec.eq_of_getLsbD_eq
    intro i _
    simp only [BitVec.getLsbD_and, BitVec.getLsbD_append, BitVec.getLsbD_allOnes, BitVec.getLsbD_zero]
    by_cases hi : i < w <;> simp [hi]
  have h2 : ((a ++ b) >>> w) &&& ((0#w) ++ BitVec.allOnes w) = (0#w) ++ a := by
    apply BitVec.eq_of_getLsbD_eq
    intro i _
    simp only [BitVec.getLsbD_and, BitVec.getLsbD_append, BitVec.getLsbD_allOnes, BitVec.getLsbD_zero, BitVec.getLsbD_ushiftRight]
    by_cases hi : i < w <;> simp [hi]
  unfold stg
  dsimp only
  rw [h1, h2, append_add _ _ _ _ (by omega), BitVec.toNat_append, BitVec.toNat_add, BitVec.toNat_add, Nat.mod_eq_of_lt (show b.toNat + a.toNat < 2 ^ w by omega)]
  simp [Nat.add_comm]

/-- The steps for words of twice the length. -/
def dbl {w : Nat} (L : List (BitVec w × Nat)) : List (BitVec (w + w) × Nat) := L.map (fun p => (p.1 ++ p.1, p.2)) ++ [((0#w) ++ BitVec.allOnes w, w)]

theorem run_append {w : Nat} : ∀ (L : List (BitVec w × Nat)), (∀ p ∈ L, 2 * p.1.toNat < 2 ^ w ∧ ∀ i, w ≤ i + p.2 → p.1.getLsbD i = false) → ∀ a b : BitVec w,
    run (L.map fun p => (p.1 ++ p.1, p.2)) (a ++ b) = run L a ++ run L b
  | [], _, _, _ => rfl
  | p :: L, h, a, b => by
    have h1 := h p (List.mem_cons_self ..)
    show run (L.map fun p => (p.1 ++ p.1, p.2)) (stg (p.1 ++ p.1, p.2) (a ++ b)) = _
    rw [cntStg_append _ _ h1.1 h1.2]
    exact run_append L (fun q hq => h q (List.mem_cons_of_mem _ hq)) _ _

theorem weight_le {w : Nat} (x : BitVec w) : weight x ≤ w := by
  unfold weight
  refine (Finset.sum_le_card_nsmul _ _ 1 fun i _ => by cases x.getLsbD i <;> simp).trans ?_
  simp

theorem run_dbl {w : Nat} (L : List (BitVec w × Nat)) (h : ∀ p ∈ L, 2 * p.1.toNat < 2 ^ w ∧ ∀ i, w ≤ i + p.2 → p.1.getLsbD i = false) (hw : w + w < 2 ^ w)
    (hL : ∀ x : BitVec w, (run L x).toNat = weight x) (x : BitVec (w + w)) : (run (dbl L) x).toNat = weight x := by
  have hx : x = (x.extractLsb' w w) ++ (x.extractLsb' 0 w) := by
    apply BitVec.eq_of_getLsbD_eq
    intro i hi
    rw [BitVec.getLsbD_append]
    by_cases g : i < w
    · simp [g]
    · simp [g, show i - w < w by omega, show w + (i - w) = i by omega]
  rw [weight_split rfl x]
  generalize x.extractLsb' w w = a at hx ⊢
  generalize x.extractLsb' 0 w = b at hx ⊢
  rw [hx]
  unfold dbl run
  rw [List.foldl_append]
  have e := run_append L h a b
  unfold run at e
  rw [e]
  show (stg _ (run L a ++ run L b)).toNat = _
  have h1 := weight_le a
  have h2 := weight_le b
  rw [cntStg_last _ _ (by rw [hL, hL]; omega), hL, hL, Nat.add_comm]

/-- The three steps for bytes. -/
def L8 : List (BitVec 8 × Nat) := [(0x55#8, 1), (0x33#8, 2), (0x0f#8, 4)]

theorem run8 (x : BitVec 8) : (run L8 x).toNat = weight x := by
  have : ∀ i : Fin 256, (run L8 (BitVec.ofFin (w := 8) i)).toNat = weight (BitVec.ofFin (w := 8) i) := by decide +kernel
  exact this x.toFin

theorem run64 (x : BitVec 64) : (run (dbl (dbl (dbl L8))) x).toNat = weight x := by
  have hb : ∀ {w : Nat} (L : List (BitVec w × Nat)), (∀ p ∈ L, 2 * p.1.toNat < 2 ^ w ∧ ∀ i < w, w ≤ i + p.2 → p.1.getLsbD i = false) →
      ∀ p ∈ L, 2 * p.1.toNat < 2 ^ w ∧ ∀ i, w ≤ i + p.2 → p.1.getLsbD i = false := fun {w} L h p hp => ⟨(h p hp).1, fun i hi => by
    by_cases g : i < w
    · exact (h p hp).2 i g hi
    · exact BitVec.getLsbD_of_ge _ _ (by omega)⟩
  exact run_dbl _ (hb _ (by decide)) (by decide) (run_dbl _ (hb _ (by decide)) (by decide) (run_dbl _ (hb _ (by decide)) (by decide) run8)) x

theorem bitcount_eq (x : Word) : m4ri_bitcount x = weight x := by
  rw [← run64 x]
  have h0 : cntMask 0 = (((0x55#8 ++ 0x55#8) ++ (0x55#8 ++ 0x55#8)) ++ ((0x55#8 ++ 0x55#8) ++ (0x55#8 ++ 0x55#8)) : BitVec 64) := by decide
  have h1 : cntMask 1 = (((0x33#8 ++ 0x33#8) ++ (0x33#8 ++ 0x33#8)) ++ ((0x33#8 ++ 0x33#8) ++ (0x33#8 ++ 0x33#8)) : BitVec 64) := by decide
  have h2 : cntMask 2 = (((0x0f#8 ++ 0x0f#8) ++ (0x0f#8 ++ 0x0f#8)) ++ ((0x0f#8 ++ 0x0f#8) ++ (0x0f#8 ++ 0x0f#8)) : BitVec 64) := by decide
  have h3 : cntMask 3 = ((((0#8 ++ BitVec.allOnes 8) ++ (0#8 ++ BitVec.allOnes 8)) ++ ((0#8 ++ BitVec.allOnes 8) ++ (0#8 ++ BitVec.allOnes 8))) : BitVec 64) := by decide
  have h4 : cntMask 4 = (((0#16 ++ BitVec.allOnes 16) ++ (0#16 ++ BitVec.allOnes 16)) : BitVec 64) := by decide
  have h5 : cntMask 5 = ((0#32 ++ BitVec.allOnes 32) : BitVec 64) := by decide
  unfold m4ri_bitcount cntStep
  simp only []
  rw [h0, h1, h2, h3, h4, h5]
  rfl

open Finset

/-- The number of ones in the first `k` columns of row `i`. -/
def rowOnes (M : Mzd) (i k : Nat) : Nat := ∑ j ∈ range k, (M.bit i j).toNat

theorem count_bits {M : Mzd} (w : M.Wf) {i off n k : Nat} (hi : i < M.nrows) (hn : off + n ≤ M.ncols) :
    countBits M i off 0 n (k + rowOnes M i off) = .ok (k + rowOnes M i (off + n)) := by
  obtain ⟨x, e, hx⟩ : Ok (countBits M i off 0 n (k + rowOnes M i off)) fun c => c = k + rowOnes M i (off + n) := by
    unfold countBits
    refine Ok.forUp (P := fun j c => c = k + rowOnes M i (off + j)) (Nat.zero_le _) rfl ?_ (fun c h => h)
    intro j c _ hj hc
    rw [read_bit w hi (by omega), C_ok_bind, hc]
    have e : rowOnes M i (off + (j + 1)) = rowOnes M i (off + j) + (M.bit i (off + j)).toNat := by
      rw [← Nat.add_assoc]; exact sum_range_succ _ _
    rw [e]
    cases M.bit i (off + j)
    · rw [if_neg (by simp), Ok.pure_iff]; simp
    · rw [if_pos rfl, Ok.pure_iff]; simp [Nat.add_assoc]
  rw [e, hx]

theorem word_weight (M : Mzd) (i q : Nat) : rowOnes M i (64 * (q + 1)) = rowOnes M i (64 * q) + weight (M.word i q) := by
  unfold rowOnes weight
  rw [show 64 * (q + 1) = 64 * q + 64 by omega, sum_range_add]
  refine congrArg _ (sum_congr rfl fun p hp => ?_)
  rw [mem_range] at hp
  unfold Mzd.bit
  rw [show (64 * q + p) / 64 = q by omega, show (64 * q + p) % 64 = p by omega]

/-- The number of columns that are looked at. -/
def covered (n : Nat) : Nat := if n % 64 = 0 then n - 64 else n

theorem density_row {M : Mzd} (w : M.Wf) (h : 64 < M.ncols) {i k t : Nat} (hi : i < M.nrows) :
    densityRow M 1 0 i (k, t) = .ok (k + rowOnes M i (covered M.ncols), t + covered M.ncols) := by
  have hw : M.width = (M.ncols + 63) / 64 := rfl
  unfold densityRow
  simp only []
  have e1 := count_bits w (i := i) (off := 0) (n := 64) (k := k) hi (by omega)
  have z : rowOnes M i 0 = 0 := rfl
  rw [z, Nat.add_zero] at e1
  rw [e1, C_ok_bind, Nat.zero_add, show max 1 (0 / 64) = 1 by decide, show (M.width - 1 - 1 + (1 - 1)) / 1 = M.width - 2 by omega]
  obtain ⟨x, e2, hx⟩ : Ok (forUp 0 (M.width - 2) (k + rowOnes M i 64) fun t count => do pure (count + m4ri_bitcount (← M.get i (1 + t * 1))))
      fun c => c = k + rowOnes M i (64 * (M.width - 1)) := by
    refine Ok.forUp (P := fun j c => c = k + rowOnes M i (64 * (j + 1))) (Nat.zero_le _) rfl ?_ (fun c h => by rw [h, show M.width - 2 + 1 = M.width - 1 by omega])
    intro j c _ hj hc
    rw [get_eq (w.at hi (by omega)), C_ok_bind, Ok.pure_iff, hc, bitcount_eq, Nat.mul_one, Nat.add_comm 1 j, word_weight M i (j + 1), Nat.add_assoc]
  rw [e2, C_ok_bind, hx]
  by_cases h0 : M.ncols % 64 = 0
  · have hc : covered M.ncols = M.ncols - 64 := if_pos h0
    rw [h0]
    show Except.ok _ = _
    rw [hc, show 64 * (M.width - 1) = M.ncols - 64 by omega]
    congr 2; omega
  · have hc : covered M.ncols = M.ncols := if_neg h0
    rw [show M.width - 1 = M.ncols / 64 by omega, count_bits w hi (by omega), C_ok_bind, hc]
    show Except.ok _ = _
    rw [show 64 * (M.ncols / 64) + M.ncols % 64 = M.ncols by omega]
    congr 2; omega

/-- What `mzd_density` divides. -/
theorem density_spec {M : Mzd} (w : M.Wf) (h0 : 0 < M.ncols) {res : Nat} (hr : res = 1 ∨ res = 0 ∧ M.width < 200) :
    mzd_density M res = .ok (∑ i ∈ range M.nrows, rowOnes M i (if M.ncols = 64 then 64 else covered M.ncols), M.nrows * (if M.ncols = 64 then 64 else covered M.ncols)) := by
  have hw : M.width = (M.ncols + 63) / 64 := rfl
  unfold mzd_density _mzd_density
  by_cases h1 : M.width = 1
  · have hc : (if M.ncols = 64 then 64 else covered M.ncols) = M.ncols := by
      unfold covered
      split_ifs <;> omega
    rw [if_pos h1, hc]
    obtain ⟨x, e, hx⟩ : Ok (forUp 0 M.nrows 0 fun i count => countBits M i 0 0 M.ncols count) fun c => c = ∑ i ∈ range M.nrows, rowOnes M i M.ncols := by
      refine Ok.forUp (P := fun k c => c = ∑ i ∈ range k, rowOnes M i M.ncols) (Nat.zero_le _) rfl ?_ (fun c h => h)
      intro k c _ hk hc
      have := count_bits w (i := k) (off := 0) (n := M.ncols) (k := c) hk (by omega)
      have z : rowOnes M k 0 = 0 := rfl
      rw [z, Nat.add_zero, Nat.zero_add] at this
      rw [this, Ok.ok_iff, sum_range_succ, hc]
    rw [e, C_ok_bind, hx, Nat.mul_comm]
    rfl
  · have hc : (if M.ncols = 64 then 64 else covered M.ncols) = covered M.ncols := by
      rw [if_neg (by omega)]
    have hres : (if (if res = 0 then M.width / 100 else res) < 1 then 1 else if res = 0 then M.width / 100 else res) = 1 := by
      split_ifs <;> omega
    rw [if_neg h1, hc]
    simp only []
    rw [hres]
    obtain ⟨x, e, hx⟩ : Ok (forUp 0 M.nrows (0, 0) fun i s => densityRow M 1 0 i s) fun c => c = (∑ i ∈ range M.nrows, rowOnes M i (covered M.ncols), M.nrows * covered M.ncols) := by
      refine Ok.forUp (P := fun k c => c = (∑ i ∈ range k, rowOnes M i (covered M.ncols), k * covered M.ncols)) (Nat.zero_le _) (by simp) ?_ (fun c h => h)
      intro k c _ hk hc
      rw [hc, density_row w (by omega) hk, Ok.ok_iff, sum_range_succ, Nat.succ_mul]
    rw [e, hx]

end WB.m4w
