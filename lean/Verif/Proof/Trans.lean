import Verif.Proof.Simple

/-!
# Transposition by exchanging index bits (helper lemmas)

Stage `j` of `MattransM*` exchanges bit `j` of the row index with bit `j` of the column index.
-/
namespace WB
open Matrix

/-- Row index after exchanging the low bits (below `k = 2^j`) of `r` with those of `c`. -/
def low (k r c : Nat) : Nat := r / k * k + c % k

/-- Row index of the pair treated by iteration `i` of a stage with distance `k`. -/
def pairRow (n k i : Nat) : Nat := (k * 2 * i) % (n - 1)

/-- Which iteration of a stage treats row `r`. -/
def pairIdx (n k r : Nat) : Nat :=
  ((if r / k % 2 = 0 then r else r - k) * (n / (k * 2))) % (n - 1)

/-- The row pairs of one stage partition the rows. -/
def PairsOK (n k : Nat) : Prop :=
  (∀ i, i < n / 2 → pairRow n k i + k < n ∧ pairRow n k i / k % 2 = 0 ∧
    (pairRow n k i + k) / k % 2 = 1 ∧
    pairIdx n k (pairRow n k i) = i ∧ pairIdx n k (pairRow n k i + k) = i) ∧
  (∀ r, r < n → pairIdx n k r < n / 2 ∧
    (r = pairRow n k (pairIdx n k r) ∨ r = pairRow n k (pairIdx n k r) + k))

instance (n k : Nat) : Decidable (PairsOK n k) := by unfold PairsOK; infer_instance

/-- One stage on whole rows: `f0`/`f1` compute the new rows of a pair. -/
theorem stage {R : Type} {n k : Nat} (hP : PairsOK n k) (hk : 0 < k) (f0 f1 : R → R → R)
    (body : Nat → Vector R n → C (Vector R n))
    (hb : ∀ i (_ : i < n / 2) (M : Vector R n) (h : pairRow n k i + k < n), Ok (body i M)
      (fun M' => M'[pairRow n k i] = f0 M[pairRow n k i] M[pairRow n k i + k] ∧
        M'[pairRow n k i + k] = f1 M[pairRow n k i] M[pairRow n k i + k] ∧
        ∀ r (h : r < n), r ≠ pairRow n k i → r ≠ pairRow n k i + k → M'[r] = M[r]))
    (M : Vector R n) :
    Ok (forUp 0 (n / 2) M body) (fun M' => ∀ r (h : r + k < n), r / k % 2 = 0 →
      M'[r] = f0 M[r] M[r + k] ∧ M'[r + k] = f1 M[r] M[r + k]) := by
  refine Ok.forUp (fun i M' =>
    (∀ r (h : r + k < n), r / k % 2 = 0 → pairIdx n k r < i →
      M'[r] = f0 M[r] M[r + k] ∧ M'[r + k] = f1 M[r] M[r + k]) ∧
    (∀ r (h : r < n), i ≤ pairIdx n k r → M'[r] = M[r])) (Nat.zero_le _) ?_ ?_ ?_
  · exact ⟨fun _ _ _ h => absurd h (Nat.not_lt_zero _), fun _ _ _ => rfl⟩
  · rintro i M' - hi ⟨h1, h2⟩
    obtain ⟨hlt, he, ho, hq, hq'⟩ := hP.1 i hi
    have g0 := h2 (pairRow n k i) (by omega) (by omega)
    have g1 := h2 (pairRow n k i + k) (by omega) (by omega)
    refine (hb i hi M' hlt).mono ?_
    rintro M'' ⟨e0, e1, er⟩
    rw [g0, g1] at e0 e1
    have hidx : ∀ r, r / k % 2 = 0 → pairIdx n k (r + k) = pairIdx n k r := by
      intro r hr
      unfold pairIdx
      rw [if_pos hr, if_neg (by rw [Nat.add_div_right _ hk]; omega), Nat.add_sub_cancel]
    refine ⟨fun r h hr hri => ?_, fun r h hri => ?_⟩
    · by_cases e : r = pairRow n k i
      · subst e; exact ⟨e0, e1⟩
      · have hne : pairIdx n k r ≠ i := by
          intro e2
          rcases (hP.2 r (by omega)).2 with h' | h' <;> rw [e2] at h'
          · exact e h'
          · rw [h'] at hr; omega
        have a := er r (by omega) (by rintro rfl; exact hne hq) (by rintro rfl; exact hne hq')
        have b := er (r + k) h (by rintro e2; rw [← e2, hidx r hr] at hq; exact hne hq)
          (by rintro e2; exact e (by omega))
        obtain ⟨c0, c1⟩ := h1 r h hr (by omega)
        exact ⟨a.trans c0, b.trans c1⟩
    · rw [er r h (by rintro rfl; omega) (by rintro rfl; omega)]
      exact h2 r h (by omega)
  · rintro M' ⟨h1, -⟩ r h hr
    exact h1 r h hr (hP.2 r (by omega)).1

/-- Arithmetic of one stage: exchanging one more index bit. -/
theorem low_same {k r c : Nat} (h : r / k % 2 = c / k % 2) :
    low (k * 2) r c = low k r c := by
  unfold low
  have e1 := Nat.div_add_mod r k
  have e2 : r / (k * 2) = r / k / 2 := (Nat.div_div_eq_div_mul r k 2).symm
  have e3 := Nat.div_add_mod (r / k) 2
  have e4 : c % (k * 2) = c % k + k * (c / k % 2) := Nat.mod_mul
  rw [e2, e4, ← h]
  generalize r / k = q at *
  generalize c % k = s at *
  have : q * k = (q / 2) * (k * 2) + k * (q % 2) := by
    calc q * k = (2 * (q / 2) + q % 2) * k := by rw [e3]
      _ = _ := by ring
  rw [this]; ring

theorem low_add {k r c : Nat} (hk : 0 < k) (hr : r / k % 2 = 0) (hc : c / k % 2 = 1) :
    low (k * 2) r c = low k (r + k) c := by
  unfold low
  have e2 : r / (k * 2) = r / k / 2 := (Nat.div_div_eq_div_mul r k 2).symm
  have e3 := Nat.div_add_mod (r / k) 2
  have e4 : c % (k * 2) = c % k + k * (c / k % 2) := Nat.mod_mul
  rw [e2, e4, hc, Nat.add_div_right _ hk, hr] at *
  generalize r / k = q at *
  generalize c % k = s at *
  have : (q + 1) * k = (q / 2) * (k * 2) + k := by
    calc (q + 1) * k = (2 * (q / 2) + 0 + 1) * k := by rw [e3]
      _ = _ := by ring
  rw [this]; ring

theorem low_sub {k r c : Nat} (hk : 0 < k) (hr : (r + k) / k % 2 = 1) (hc : c / k % 2 = 0) :
    low (k * 2) (r + k) c = low k r c := by
  unfold low
  have hr' : r / k % 2 = 0 := by rw [Nat.add_div_right _ hk] at hr; omega
  have e2 : (r + k) / (k * 2) = (r + k) / k / 2 := (Nat.div_div_eq_div_mul _ k 2).symm
  have e3 := Nat.div_add_mod (r / k) 2
  have e4 : c % (k * 2) = c % k + k * (c / k % 2) := Nat.mod_mul
  rw [e2, e4, hc, Nat.add_div_right _ hk]
  generalize r / k = q at *
  generalize c % k = s at *
  have h2 : (q + 1) / 2 = q / 2 := by omega
  have : q * k = (q / 2) * (k * 2) := by
    calc q * k = (2 * (q / 2) + 0) * k := by rw [← hr', e3]
      _ = _ := by ring
  rw [h2, this]; ring

theorem low_add_left {k r c : Nat} : low k r (c + k) = low k r c := by
  unfold low; rw [Nat.add_mod_right]

/-- The bit matrix `b` is `a` with the low index bits (below `k`) exchanged. -/
def Exch (n k : Nat) (a b : Nat → Nat → Bool) : Prop :=
  ∀ r c, r < n → c < n → b r c = a (low k r c) (low k c r)

theorem Exch.one (n : Nat) (a : Nat → Nat → Bool) : Exch n 1 a a := by
  intro r c _ _
  simp [low, Nat.mod_one]

theorem Exch.full {n : Nat} {a b : Nat → Nat → Bool} (h : Exch n n a b) {r c : Nat} (hr : r < n)
    (hc : c < n) : b r c = a c r := by
  rw [h r c hr hc]
  simp [low, Nat.div_eq_of_lt hr, Nat.div_eq_of_lt hc, Nat.mod_eq_of_lt hr, Nat.mod_eq_of_lt hc]

/-- One more index bit is exchanged. -/
theorem Exch.step {n k : Nat} (hk : 0 < k) {a b b' : Nat → Nat → Bool} (h : Exch n k a b)
    (hn : ∀ r, r < n → r / k % 2 = 0 → r + k < n)
    (h00 : ∀ r c, r < n → c < n → r / k % 2 = c / k % 2 → b' r c = b r c)
    (h01 : ∀ r c, r + k < n → c + k < n → r / k % 2 = 0 → c / k % 2 = 0 →
      b' r (c + k) = b (r + k) c ∧ b' (r + k) c = b r (c + k)) : Exch n (k * 2) a b' := by
  intro r c hr hc
  have hsub : ∀ x, x / k % 2 = 1 → k ≤ x := by
    intro x hx
    by_contra hlt
    rw [Nat.div_eq_of_lt (by omega)] at hx; omega
  by_cases e : r / k % 2 = c / k % 2
  · rw [h00 r c hr hc e, h r c hr hc, low_same e, low_same e.symm]
  · rcases Nat.mod_two_eq_zero_or_one (r / k) with h0 | h0
    · have h1 : c / k % 2 = 1 := by omega
      obtain ⟨d, rfl⟩ : ∃ d, c = d + k := ⟨c - k, by have := hsub c h1; omega⟩
      have hd : d / k % 2 = 0 := by rw [Nat.add_div_right _ hk] at h1; omega
      rw [(h01 r d (hn r hr h0) hc h0 hd).1, h _ _ (hn r hr h0) (by omega)]
      rw [low_add hk h0 h1, low_add_left, low_sub hk h1 h0, low_add_left]
    · have h1 : c / k % 2 = 0 := by omega
      obtain ⟨d, rfl⟩ : ∃ d, r = d + k := ⟨r - k, by have := hsub r h0; omega⟩
      have hd : d / k % 2 = 0 := by rw [Nat.add_div_right _ hk] at h0; omega
      rw [(h01 d c hr (hn c hc h1) hd h1).2, h _ _ (by omega) (hn c hc h1)]
      rw [low_sub hk h0 h1, low_add_left, low_add hk h1 h0, low_add_left]

/-! ## Masks -/

/-- `m` selects the bit positions whose index has bit `log k` clear. -/
def MaskOK {w : Nat} (n k : Nat) (m : BitVec w) : Prop :=
  (∀ p, p < w → m.getLsbD p = decide (p < n ∧ p / k % 2 = 0)) ∧
  (∀ p, p < n → p / k % 2 = 0 → p + k < n)

instance {w : Nat} (n k : Nat) (m : BitVec w) : Decidable (MaskOK n k m) := by
  unfold MaskOK; infer_instance

/-- New upper row of a pair. -/
def newLo {w : Nat} (m : BitVec w) (k : Nat) (x y : BitVec w) : BitVec w :=
  (x &&& ~~~m) ^^^ ((y &&& ~~~m) >>> k)

/-- New lower row of a pair. -/
def newHi {w : Nat} (m : BitVec w) (k : Nat) (x y : BitVec w) : BitVec w :=
  (y &&& m) ^^^ ((x &&& m) <<< k)

theorem div_even {k c : Nat} (hk : 0 < k) (n p : Nat) (hc : c < n) (hp : p = n - 1 - c)
    (hn : n % (k * 2) = 0) : p / k % 2 = 0 ↔ c / k % 2 = 1 := by
  have e1 := Nat.div_add_mod c k
  have e2 := Nat.mod_lt c hk
  obtain ⟨q, hq⟩ : ∃ q, n = k * 2 * q := ⟨n / (k * 2), by
    have := Nat.div_add_mod n (k * 2); omega⟩
  have hlt : c / k < 2 * q := by
    rw [Nat.div_lt_iff_lt_mul hk]
    calc c < n := hc
      _ = 2 * q * k := by rw [hq]; ring
  have : p = k * (2 * q - 1 - c / k) + (k - 1 - c % k) := by
    have h3 : k * (2 * q) = k * (2 * q - 1 - c / k) + k * (c / k) + k := by
      rw [← Nat.mul_add, ← Nat.mul_succ]; congr 1; omega
    have h4 : n = k * (2 * q) := by rw [hq]; ring
    omega
  rw [this, Nat.mul_add_div hk, Nat.div_eq_of_lt (by omega : k - 1 - c % k < k)]
  omega

theorem bit_newLo_keep {w n k : Nat} {m : BitVec w} (hk : 0 < k) (hw : n ≤ w) (hm : MaskOK n k m)
    (hn : n % (k * 2) = 0) {x y : BitVec w}
    (hy : ∀ p, n ≤ p → y.getLsbD p = false) {c : Nat} (hc : c < n) (h : c / k % 2 = 0) :
    bitS n (newLo m k x y) c = bitS n x c := by
  have hp : (n - 1 - c) / k % 2 = 1 := by
    have := div_even hk n _ hc rfl hn; omega
  have hp' : (n - 1 - c + k) / k % 2 = 0 := by rw [Nat.add_div_right _ hk]; omega
  unfold bitS newLo
  rw [BitVec.getLsbD_xor, BitVec.getLsbD_ushiftRight, BitVec.getLsbD_and, BitVec.getLsbD_and,
    BitVec.getLsbD_not, BitVec.getLsbD_not, hm.1 _ (by omega)]
  have : (y.getLsbD (k + (n - 1 - c)) && (decide (k + (n - 1 - c) < w) && !m.getLsbD (k + (n - 1 - c)))) = false := by
    by_cases h1 : k + (n - 1 - c) < n
    · rw [hm.1 _ (by omega), Nat.add_comm k]
      simp [hp']; intro _ _; omega
    · rw [hy _ (by omega)]; rfl
  rw [this]
  simp [hp]; intro _; omega

theorem bit_newLo_move {w n k : Nat} {m : BitVec w} (hk : 0 < k) (hw : n ≤ w) (hm : MaskOK n k m)
    (hn : n % (k * 2) = 0) {x y : BitVec w} {c : Nat} (hc : c + k < n) (h : c / k % 2 = 0) :
    bitS n (newLo m k x y) (c + k) = bitS n y c := by
  have h1 : (c + k) / k % 2 = 1 := by rw [Nat.add_div_right _ hk]; omega
  have hp : (n - 1 - (c + k)) / k % 2 = 0 := (div_even hk n _ hc rfl hn).2 h1
  have hp' : (n - 1 - c) / k % 2 = 1 := by
    have := div_even hk n _ (by omega : c < n) rfl hn; omega
  unfold bitS newLo
  rw [BitVec.getLsbD_xor, BitVec.getLsbD_ushiftRight, BitVec.getLsbD_and, BitVec.getLsbD_and,
    BitVec.getLsbD_not, BitVec.getLsbD_not, hm.1 _ (by omega), hm.1 _ (by omega),
    show k + (n - 1 - (c + k)) = n - 1 - c by omega]
  have hlt : n - 1 - (c + k) < n := by omega
  have hlt' : n - 1 - c < w := by omega
  simp [hp, hp', hlt, hlt']

theorem bit_newHi_keep {w n k : Nat} {m : BitVec w} (hk : 0 < k) (hw : n ≤ w) (hm : MaskOK n k m)
    (hn : n % (k * 2) = 0) {x y : BitVec w} {c : Nat} (hc : c < n) (h : c / k % 2 = 1) :
    bitS n (newHi m k x y) c = bitS n y c := by
  have hp : (n - 1 - c) / k % 2 = 0 := (div_even hk n _ hc rfl hn).2 h
  have hlt : n - 1 - c < n := by omega
  unfold bitS newHi
  rw [BitVec.getLsbD_xor, BitVec.getLsbD_shiftLeft, BitVec.getLsbD_and, BitVec.getLsbD_and,
    hm.1 _ (by omega)]
  have : (decide (n - 1 - c < w) && !decide (n - 1 - c < k) &&
      (x.getLsbD (n - 1 - c - k) && m.getLsbD (n - 1 - c - k))) = false := by
    by_cases h1 : n - 1 - c < k
    · simp [h1]
    · have : (n - 1 - c - k) / k % 2 = 1 := by
        have := Nat.add_div_right (n - 1 - c - k) hk
        rw [show n - 1 - c - k + k = n - 1 - c by omega] at this
        omega
      rw [hm.1 _ (by omega)]; simp [this]
  rw [this]
  simp [hp, hlt]

theorem bit_newHi_move {w n k : Nat} {m : BitVec w} (hk : 0 < k) (hw : n ≤ w) (hm : MaskOK n k m)
    (hn : n % (k * 2) = 0) {x y : BitVec w} {c : Nat} (hc : c + k < n) (h : c / k % 2 = 0) :
    bitS n (newHi m k x y) c = bitS n x (c + k) := by
  have h1 : (c + k) / k % 2 = 1 := by rw [Nat.add_div_right _ hk]; omega
  have hp : (n - 1 - (c + k)) / k % 2 = 0 := (div_even hk n _ hc rfl hn).2 h1
  have hp' : (n - 1 - c) / k % 2 = 1 := by
    have := div_even hk n _ (by omega : c < n) rfl hn; omega
  unfold bitS newHi
  rw [BitVec.getLsbD_xor, BitVec.getLsbD_shiftLeft, BitVec.getLsbD_and, BitVec.getLsbD_and,
    hm.1 _ (by omega), hm.1 _ (by omega), show n - 1 - c - k = n - 1 - (c + k) by omega]
  have a1 : n - 1 - (c + k) < n := by omega
  have a2 : n - 1 - c < w := by omega
  have a3 : ¬ n - 1 - c < k := by omega
  simp [hp, hp', a1, a2, a3]

/-- Bits of a matrix whose rows are single words. -/
def bitsS (n : Nat) {w : Nat} (A : Vector (BitVec w) n) (r c : Nat) : Bool :=
  bitS n (A[r]?.getD 0) c

/-- Bits of a matrix whose rows are word arrays. -/
def bitsW {l n : Nat} (A : Vector (Vector (BitVec 64) l) n) (r c : Nat) : Bool :=
  bitW (A[r]?.getD (Vector.replicate l 0)) c

theorem bitsS_eq {n w : Nat} (A : Vector (BitVec w) n) {r : Nat} (h : r < n) (c : Nat) :
    bitsS n A r c = bitS n A[r] c := by simp [bitsS, h]

theorem bitsW_eq {l n : Nat} (A : Vector (Vector (BitVec 64) l) n) {r : Nat} (h : r < n) (c : Nat) :
    bitsW A r c = bitW A[r] c := by simp [bitsW, h]

/-- One stage on single-word rows. -/
theorem stageS {w n k : Nat} {m : BitVec w} (hk : 0 < k) (hw : n ≤ w) (hm : MaskOK n k m)
    (hn : n % (k * 2) = 0) {a : Nat → Nat → Bool} {A A' : Vector (BitVec w) n}
    (f0 f1 : BitVec w → BitVec w → BitVec w)
    (hf0 : ∀ x y c, c < n → bitS n (f0 x y) c = bitS n (newLo m k x y) c)
    (hf1 : ∀ x y c, c < n → bitS n (f1 x y) c = bitS n (newHi m k x y) c)
    (hA : ∀ r (h : r < n) p, n ≤ p → A[r].getLsbD p = false)
    (h : Exch n k a (bitsS n A))
    (hstep : ∀ r (h : r + k < n), r / k % 2 = 0 →
      A'[r] = f0 A[r] A[r + k] ∧ A'[r + k] = f1 A[r] A[r + k]) :
    Exch n (k * 2) a (bitsS n A') := by
  refine h.step hk (fun r hr h0 => hm.2 r hr h0) ?_ ?_
  · intro r c hr hc e
    rw [bitsS_eq _ hr, bitsS_eq _ hr]
    rcases Nat.mod_two_eq_zero_or_one (r / k) with h0 | h0
    · have := hm.2 r hr h0
      rw [(hstep r this h0).1, hf0 _ _ _ hc]
      exact bit_newLo_keep hk hw hm hn (hA _ _) hc (by omega)
    · have hkr : k ≤ r := by
        by_contra hlt
        rw [Nat.div_eq_of_lt (by omega)] at h0; omega
      obtain ⟨d, rfl⟩ : ∃ d, r = d + k := ⟨r - k, by omega⟩
      have hd : d / k % 2 = 0 := by rw [Nat.add_div_right _ hk] at h0; omega
      rw [(hstep d hr hd).2, hf1 _ _ _ hc]
      exact bit_newHi_keep hk hw hm hn hc (by omega)
  · intro r c hr hc h0 h1
    rw [bitsS_eq _ (by omega : r < n), bitsS_eq _ hr, bitsS_eq _ hr, bitsS_eq _ (by omega : r < n)]
    rw [(hstep r hr h0).1, (hstep r hr h0).2, hf0 _ _ _ hc, hf1 _ _ _ (by omega)]
    exact ⟨bit_newLo_move hk hw hm hn hc h1, bit_newHi_move hk hw hm hn hc h1⟩

/-- One in-word stage on multi-word rows. -/
theorem stageW {l n k : Nat} (hl : n = 64 * l) {m : BitVec 64} (hk : 0 < k)
    (hm : MaskOK 64 k m) (h64 : 64 % (k * 2) = 0) {a : Nat → Nat → Bool}
    {A A' : Vector (Vector (BitVec 64) l) n}
    (hN : ∀ r, r < n → r / k % 2 = 0 → r + k < n)
    (h : Exch n k a (bitsW A))
    (hstep : ∀ r (h : r + k < n), r / k % 2 = 0 → ∀ q (hq : q < l),
      A'[r][q] = newLo m k A[r][q] A[r + k][q] ∧ A'[r + k][q] = newHi m k A[r][q] A[r + k][q]) :
    Exch n (k * 2) a (bitsW A') := by
  have hdvd : ∃ t, 64 = k * 2 * t := ⟨64 / (k * 2), by have := Nat.div_add_mod 64 (k * 2); omega⟩
  obtain ⟨t, ht⟩ := hdvd
  have hmod : ∀ c, c % 64 / k % 2 = c / k % 2 := by
    intro c
    have e : c / k = c % 64 / k + 2 * (t * (c / 64)) := by
      have := Nat.div_add_mod c 64
      conv_lhs => rw [← this, show 64 * (c / 64) + c % 64 = c % 64 + k * (2 * (t * (c / 64))) by
        rw [show k * (2 * (t * (c / 64))) = (k * 2 * t) * (c / 64) by ring, ← ht]; omega]
      rw [Nat.add_mul_div_left _ _ hk]
    rw [e]; omega
  have hplus : ∀ c, c / k % 2 = 0 → c % 64 + k < 64 := by
    intro c hc
    exact hm.2 (c % 64) (Nat.mod_lt _ (by omega)) (by rw [hmod]; exact hc)
  have hbit : ∀ (x : Vector (BitVec 64) l) c (hc : c < n),
      bitW x c = bitS 64 (x[c / 64]'(by omega)) (c % 64) := by
    intro x c hc; rw [bitW_eq _ _ (by omega)]; rfl
  refine h.step hk hN ?_ ?_
  · intro r c hr hc e
    have hm64 : c % 64 < 64 := Nat.mod_lt _ (by omega)
    rw [bitsW_eq _ hr, bitsW_eq _ hr, hbit _ _ hc, hbit _ _ hc]
    rcases Nat.mod_two_eq_zero_or_one (r / k) with h0 | h0
    · rw [(hstep r (hN r hr h0) h0 _ (by omega)).1]
      exact bit_newLo_keep hk (Nat.le_refl _) hm h64 (fun p hp => BitVec.getLsbD_of_ge _ _ hp) hm64
        (by rw [hmod]; omega)
    · have hkr : k ≤ r := by
        by_contra hlt
        rw [Nat.div_eq_of_lt (by omega)] at h0; omega
      obtain ⟨d, rfl⟩ : ∃ d, r = d + k := ⟨r - k, by omega⟩
      have hd : d / k % 2 = 0 := by rw [Nat.add_div_right _ hk] at h0; omega
      rw [(hstep d hr hd _ (by omega)).2]
      exact bit_newHi_keep hk (Nat.le_refl _) hm h64 hm64 (by rw [hmod]; omega)
  · intro r c hr hc h0 h1
    have hp := hplus c h1
    have d1 : (c + k) / 64 = c / 64 := by omega
    have d2 : (c + k) % 64 = c % 64 + k := by omega
    rw [bitsW_eq _ (by omega : r < n), bitsW_eq _ hr, bitsW_eq _ hr, bitsW_eq _ (by omega : r < n)]
    rw [hbit _ _ hc, hbit _ _ (by omega : c < n), hbit _ _ hc, hbit _ _ (by omega : c < n)]
    simp only [d1, d2]
    rw [(hstep r hr h0 _ (by omega)).1, (hstep r hr h0 _ (by omega)).2]
    exact ⟨bit_newLo_move hk (Nat.le_refl _) hm h64 hp (by rw [hmod]; exact h1),
      bit_newHi_move hk (Nat.le_refl _) hm h64 hp (by rw [hmod]; exact h1)⟩

theorem Clean4.bits4 {x : BitVec 8} (h : Clean4 x) (k : Nat) (hk : 4 ≤ k) :
    x.getLsbD k = false := by
  unfold Clean4 at h
  rw [BitVec.getLsbD, Nat.testBit_lt_two_pow]
  calc x.toNat < 2 ^ 4 := h
    _ ≤ 2 ^ k := Nat.pow_le_pow_right (by omega) hk

theorem clean4_of_bits {x : BitVec 8} (h : ∀ p, 4 ≤ p → x.getLsbD p = false) : Clean4 x := by
  unfold Clean4
  by_contra hc
  obtain ⟨i, hi, hb⟩ := Nat.exists_ge_and_testBit_of_ge_two_pow (x := x.toNat) (n := 4) (by omega)
  have := h i hi
  rw [BitVec.getLsbD, hb] at this
  cases this

theorem Ok_bind_pure {α : Type} (x : C α) (Q : α → Prop) : Ok (x >>= pure) Q ↔ Ok x Q := by
  cases x <;> simp

theorem transS_of_exch {w n : Nat} {A B : Vector (BitVec w) n}
    (h : Exch n n (bitsS n A) (bitsS n B)) : matOf n (bitS n) B = (matOf n (bitS n) A)ᵀ := by
  ext r c
  have := h.full r.2 c.2
  rw [bitsS_eq _ r.2, bitsS_eq _ c.2] at this
  exact congrArg bitF this

theorem transW_of_exch {l n : Nat} {A B : Vector (Vector (BitVec 64) l) n}
    (h : Exch n n (bitsW A) (bitsW B)) : matOf n bitW B = (matOf n bitW A)ᵀ := by
  ext r c
  have := h.full r.2 c.2
  rw [bitsW_eq _ r.2, bitsW_eq _ c.2] at this
  exact congrArg bitF this

end WB
