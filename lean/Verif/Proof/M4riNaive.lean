import Verif.Proof.M4riMul

/-!
# The product of M4RI for narrow matrices: the parity network (helper lemmas)
-/
namespace WB.m4w

open WB.cmp (Mem Mem2)

/-! ## The parities of 64 words -/

theorem xsum_two (m : Nat) (f : Nat → Bool) : xsum (2 * m) f = (xsum m (fun t => f (2 * t)) ^^ xsum m fun t => f (2 * t + 1)) := by
  induction m with
  | zero => rfl
  | succ m ih =>
    rw [show 2 * (m + 1) = 2 * m + 1 + 1 by omega, xsum, xsum, ih, xsum, xsum]
    cases xsum m (fun t => f (2 * t)) <;> cases xsum m (fun t => f (2 * t + 1)) <;> cases f (2 * m) <;> cases f (2 * m + 1) <;> rfl

theorem xsum_comm (m n : Nat) (f : Nat → Nat → Bool) : (xsum m fun i => xsum n fun j => f i j) = xsum n fun j => xsum m fun i => f i j := by
  induction m with
  | zero => simp only [xsum, xsum_false]
  | succ m ih => simp only [xsum, xsum_xor, ih]

/-- The parity of the bits of `W` at the positions congruent to `p` modulo `N`. -/
def cls (N : Nat) (W : Word) (p : Nat) : Bool := xsum (64 / N) fun t => W.getLsbD (p % N + N * t)

theorem cls_step {N m p : Nat} (hN : 0 < N) (h : 64 = 2 * N * m) (W : Word) :
    cls N W p = if N ≤ p % (2 * N) then cls (2 * N) W p ^^ cls (2 * N) W (p - N) else cls (2 * N) W p ^^ cls (2 * N) W (p + N) := by
  have h1 : 64 / N = 2 * m := by rw [h, show 2 * N * m = 2 * m * N by ring, Nat.mul_div_cancel _ hN]
  have h2 : 64 / (2 * N) = m := by rw [h, Nat.mul_div_cancel_left _ (by omega)]
  have hm := Nat.div_add_mod p (2 * N)
  have hl : p % (2 * N) < 2 * N := Nat.mod_lt _ (by omega)
  have e1 : ∀ t, N * (2 * t) = 2 * N * t := fun t => by ring
  have e2 : ∀ t, N * (2 * t + 1) = N + 2 * N * t := fun t => by ring
  generalize p / (2 * N) = q at hm
  unfold cls
  rw [h1, h2, xsum_two]
  simp only [e1, e2, ← Nat.add_assoc]
  split
  · rename_i hp
    have f1 : p % N = p % (2 * N) - N := by
      conv_lhs => rw [← hm, show 2 * N * q + p % (2 * N) = p % (2 * N) - N + N * (2 * q + 1) by rw [Nat.mul_succ, Nat.mul_assoc, Nat.mul_left_comm]; omega]
      rw [Nat.add_mul_mod_self_left, Nat.mod_eq_of_lt (by omega)]
    have f2 : (p - N) % (2 * N) = p % (2 * N) - N := by
      conv_lhs => rw [← hm, show 2 * N * q + p % (2 * N) - N = p % (2 * N) - N + 2 * N * q by omega]
      rw [Nat.add_mul_mod_self_left, Nat.mod_eq_of_lt (by omega)]
    rw [f1, f2, show p % (2 * N) - N + N = p % (2 * N) by omega, Bool.xor_comm]
  · rename_i hp
    have f1 : p % N = p % (2 * N) := by
      conv_lhs => rw [← hm, show 2 * N * q + p % (2 * N) = p % (2 * N) + N * (2 * q) by rw [Nat.mul_assoc, Nat.mul_left_comm]; omega]
      rw [Nat.add_mul_mod_self_left, Nat.mod_eq_of_lt (by omega)]
    have f2 : (p + N) % (2 * N) = p % (2 * N) + N := by
      conv_lhs => rw [← hm, show 2 * N * q + p % (2 * N) + N = p % (2 * N) + N + 2 * N * q by omega]
      rw [Nat.add_mul_mod_self_left, Nat.mod_eq_of_lt (by omega)]
    rw [f1, f2]

/-- Bit `p` of `w` is a partial parity of the word whose number is `o` plus the upper bits of `p`. -/
def St (buf : Nat → Word) (N o : Nat) (w : Word) : Prop := ∀ p < 64, w.getLsbD p = cls N (buf (o + N * (p / N))) p

def Mixes (N : Nat) (mix : Word → Word → Word) : Prop := ∀ a b, ∀ p < 64, (mix a b).getLsbD p =
  if N ≤ p % (2 * N) then a.getLsbD p ^^ a.getLsbD (p - N) else b.getLsbD p ^^ b.getLsbD (p + N)

theorem St.step {buf : Nat → Word} {N m o : Nat} {mix : Word → Word → Word} (hN : 0 < N) (h : 64 = 2 * N * m) (hmix : Mixes N mix) {a b : Word}
    (ha : St buf (2 * N) (o + N) a) (hb : St buf (2 * N) o b) : St buf N o (mix a b) := by
  intro p hp
  have hm := Nat.div_add_mod p (2 * N)
  have hl : p % (2 * N) < 2 * N := Nat.mod_lt _ (by omega)
  generalize hq : p / (2 * N) = q at hm
  have hqm : q < m := by
    by_contra hc
    have : 2 * N * m ≤ 2 * N * q := Nat.mul_le_mul_left _ (by omega)
    omega
  have hqm' : 2 * N * q + 2 * N ≤ 64 := by
    have : 2 * N * (q + 1) ≤ 2 * N * m := Nat.mul_le_mul_left _ hqm
    rw [Nat.mul_succ] at this
    omega
  rw [hmix a b p hp, cls_step hN h]
  split
  · rename_i hc
    rw [ha p hp, ha (p - N) (by omega), hq]
    have f1 : p / N = 2 * q + 1 := by
      rw [Nat.div_eq_iff hN]
      rw [show (2 * q + 1) * N = 2 * N * q + N by ring]
      omega
    have f2 : (p - N) / (2 * N) = q := by
      rw [Nat.div_eq_iff (by omega), show q * (2 * N) = 2 * N * q by ring]
      omega
    rw [f1, f2, show o + N * (2 * q + 1) = o + N + 2 * N * q by ring]
  · rename_i hc
    rw [hb p hp, hb (p + N) (by omega), hq]
    have f1 : p / N = 2 * q := by
      rw [Nat.div_eq_iff hN]
      rw [show (2 * q) * N = 2 * N * q by ring]
      omega
    have f2 : (p + N) / (2 * N) = q := by
      rw [Nat.div_eq_iff (by omega), show q * (2 * N) = 2 * N * q by ring]
      omega
    rw [f1, f2, show o + N * (2 * q) = o + 2 * N * q by ring]

theorem St.start (buf : Nat → Word) (o : Nat) : St buf 64 o (buf o) := by
  intro p hp
  unfold cls
  rw [show 64 / 64 = 1 from rfl, Nat.div_eq_of_lt hp, Nat.mod_eq_of_lt hp]
  simp [xsum]

theorem mask_mix {N : Nat} {mh ml : Word} {mix : Word → Word → Word} (hh : ∀ p < 64, mh.getLsbD p = decide (N ≤ p % (2 * N)))
    (hl : ∀ p < 64, ml.getLsbD p = !decide (N ≤ p % (2 * N)))
    (hmix : ∀ a b, mix a b = (((a <<< N) ^^^ a) &&& mh) ||| (((b >>> N) ^^^ b) &&& ml)) : Mixes N mix := by
  intro a b p hp
  rw [hmix, BitVec.getLsbD_or, BitVec.getLsbD_and, BitVec.getLsbD_and, BitVec.getLsbD_xor, BitVec.getLsbD_xor, hh p hp, hl p hp, BitVec.getLsbD_shiftLeft,
    BitVec.getLsbD_ushiftRight]
  by_cases h : N ≤ p % (2 * N)
  · have : N ≤ p := Nat.le_trans h (Nat.mod_le _ _)
    rw [if_pos h, decide_eq_true h, decide_eq_true hp, decide_eq_false (show ¬ p < N by omega)]
    simp [Bool.xor_comm]
  · rw [if_neg h, decide_eq_false h, Nat.add_comm N p]
    simp [Bool.xor_comm]

theorem mixes32 : Mixes 32 mix32 := by
  intro a b p hp
  unfold mix32
  rw [BitVec.getLsbD_or, BitVec.getLsbD_shiftLeft, BitVec.getLsbD_ushiftRight, BitVec.getLsbD_xor, BitVec.getLsbD_xor, BitVec.getLsbD_shiftLeft,
    BitVec.getLsbD_ushiftRight]
  by_cases h : 32 ≤ p % (2 * 32)
  · have h1 : 32 ≤ p := by omega
    rw [if_pos h, decide_eq_true hp, decide_eq_false (show ¬ p < 32 by omega), decide_eq_false (show ¬ 32 + p < 64 by omega),
      BitVec.getLsbD_of_ge b (32 + p) (by omega), show 32 + (p - 32) = p by omega]
    simp
  · have h1 : p < 32 := by omega
    rw [if_neg h, decide_eq_true h1, decide_eq_true (show 32 + p < 64 by omega), decide_eq_false (show ¬ 32 + p < 32 by omega),
      show 32 + p - 32 = p by omega, Nat.add_comm 32 p]
    simp

theorem mixes16 : Mixes 16 mix16 := mask_mix (by decide) (by decide) fun _ _ => rfl
theorem mixes8 : Mixes 8 mix8 := mask_mix (by decide) (by decide) fun _ _ => rfl
theorem mixes4 : Mixes 4 mix4 := mask_mix (by decide) (by decide) fun _ _ => rfl
theorem mixes2 : Mixes 2 mix2 := mask_mix (by decide) (by decide) fun _ _ => rfl
theorem mixes1 : Mixes 1 mix1 := mask_mix (by decide) (by decide) fun _ _ => rfl

theorem helper_st (buf : Nat → Word) (o : Nat) : St buf 4 o (m4ri_parity64_helper buf o) := by
  unfold m4ri_parity64_helper
  simp only []
  have s32 : ∀ q, St buf 32 (o + q) (mix32 (buf (o + (q + 32))) (buf (o + q))) := fun q =>
    St.step (N := 32) (m := 1) (by omega) (by omega) mixes32 (by rw [← Nat.add_assoc]; exact St.start buf _) (St.start buf _)
  have s16 : ∀ q, St buf 16 (o + q) (mix16 (mix32 (buf (o + (q + 16 + 32))) (buf (o + (q + 16)))) (mix32 (buf (o + (q + 32))) (buf (o + q)))) := fun q =>
    St.step (N := 16) (m := 2) (by omega) (by omega) mixes16 (by rw [Nat.add_assoc]; exact s32 (q + 16)) (s32 q)
  have s8 : ∀ q, St buf 8 (o + q) (mix8 _ _) := fun q =>
    St.step (N := 8) (m := 4) (by omega) (by omega) mixes8 (by rw [Nat.add_assoc]; exact s16 (q + 8)) (s16 q)
  exact St.step (N := 4) (m := 8) (by omega) (by omega) mixes4 (s8 4) (s8 0)

/-- Bit `p` of `m4ri_parity64(buf)` is the parity of `buf[p]`. -/
theorem parity64 (buf : Nat → Word) {p : Nat} (hp : p < 64) : (m4ri_parity64 buf).getLsbD p = xsum 64 fun t => (buf p).getLsbD t := by
  have h : St buf 1 0 (m4ri_parity64 buf) := by
    unfold m4ri_parity64
    simp only []
    exact St.step (N := 1) (m := 32) (by omega) (by omega) mixes1
      (St.step (N := 2) (m := 16) (by omega) (by omega) mixes2 (helper_st buf 3) (helper_st buf 1))
      (St.step (N := 2) (m := 16) (by omega) (by omega) mixes2 (helper_st buf 2) (helper_st buf 0))
  rw [h p hp]
  unfold cls
  simp [Nat.mod_one]

/-! ## One row -/

/-- The scalar product of row `i` of `A` with row `c` of `B`. -/
def dot (A B : Mzd) (i c : Nat) : Bool := xsum (64 * A.width) fun l => A.bit i l && B.bit c l

theorem xsum_from (f : Nat → Bool) (n i : Nat) (hi : i < n) (h1 : 1 ≤ i) :
    xsum n (fun t => decide (t = 0 ∨ i ≤ t) && f t) = (xsum n (fun t => decide (t = 0 ∨ i + 1 ≤ t) && f t) ^^ f i) := by
  conv_rhs => rw [← xsum_one hi f]
  rw [← xsum_xor]
  refine xsum_congr fun t _ => ?_
  by_cases h : t = i
  · rw [h, decide_eq_true (show i = 0 ∨ i ≤ i by omega), decide_eq_false (show ¬ (i = 0 ∨ i + 1 ≤ i) by omega)]; simp
  · rw [decide_eq_false h, show decide (t = 0 ∨ i ≤ t) = decide (t = 0 ∨ i + 1 ≤ t) from decide_eq_decide.2 (by omega)]; simp

theorem dot_words (A B : Mzd) (i c : Nat) :
    (xsum 64 fun t => xsum A.width fun ii => (A.word i ii &&& B.word c ii).getLsbD t) = dot A B i c := by
  unfold dot
  rw [xsum_comm, Nat.mul_comm 64, xsum_mul]
  refine xsum_congr fun ii _ => xsum_congr fun t ht => ?_
  unfold Mzd.bit
  rw [show (ii * 64 + t) / 64 = ii by omega, show (ii * 64 + t) % 64 = t by omega, BitVec.getLsbD_and]

variable {A B : Mzd}

/-- `parity[k]` in the first loop. -/
theorem naive_down (wA : A.Wf) (wB : B.Wf) (hw : B.width = A.width) (h0 : 0 < A.width) {i c k : Nat} (hi : i < A.nrows) (hc : c < B.nrows) {m : Mem Word} (hk : k < m.size) :
    Ok (do
      let parity ← m.put k ((← A.get i 0) &&& (← B.get c 0))
      forDown A.width 1 parity fun ii parity => do
        parity.put k ((← parity.get k) ^^^ ((← A.get i ii) &&& (← B.get c ii)))) fun m' =>
      m'.size = m.size ∧ (∀ l, l ≠ k → m'.cell l = m.cell l) ∧ ∀ t, (m'.cell k).getLsbD t = xsum A.width fun ii => (A.word i ii &&& B.word c ii).getLsbD t := by
  simp only [Ok.bind_iff, Ok_get, Mem.Ok_put]
  refine ⟨wA.at hi h0, wB.at hc (by omega), hk, ?_⟩
  refine Ok.forDown (P := fun ii (m' : Mem Word) => m'.size = m.size ∧ (∀ l, l ≠ k → m'.cell l = m.cell l) ∧ ∀ t, (m'.cell k).getLsbD t =
    xsum A.width fun y => decide (y = 0 ∨ ii ≤ y) && (A.word i y &&& B.word c y).getLsbD t) h0
    ⟨rfl, fun l hl => if_neg hl, fun t => ?_⟩ ?_ ?_
  · rw [xsum_congr (g := fun y => decide (y = 0) && (A.word i y &&& B.word c y).getLsbD t) fun y hy => by
      rw [show decide (y = 0 ∨ A.width ≤ y) = decide (y = 0) from decide_eq_decide.2 (by omega)], xsum_one h0]
    simp
  · intro ii m' h1 h2 ⟨e1, e2, e3⟩
    simp only [Ok.bind_iff, Ok_get, Mem.Ok_put, Mem.Ok_get]
    refine ⟨by omega, wA.at hi h2, wB.at hc (by omega), by omega, e1, fun l hl => by rw [if_neg hl]; exact e2 l hl, fun t => ?_⟩
    rw [if_pos trivial, BitVec.getLsbD_xor, e3, xsum_from _ _ _ h2 h1]
  · intro m' ⟨e1, e2, e3⟩
    refine ⟨e1, e2, fun t => ?_⟩
    rw [e3]
    exact xsum_congr fun y _ => by rw [decide_eq_true (by omega)]; rfl

theorem naive_up (wA : A.Wf) (wB : B.Wf) (hw : B.width = A.width) (h0 : 0 < A.width) {i c k : Nat} (hi : i < A.nrows) (hc : c < B.nrows) {m : Mem Word} (hk : k < m.size) :
    Ok (do
      let parity ← m.put k ((← A.get i 0) &&& (← B.get c 0))
      forUp 1 A.width parity fun ii parity => do
        parity.put k ((← parity.get k) ^^^ ((← A.get i ii) &&& (← B.get c ii)))) fun m' =>
      m'.size = m.size ∧ (∀ l, l ≠ k → m'.cell l = m.cell l) ∧ ∀ t, (m'.cell k).getLsbD t = xsum A.width fun ii => (A.word i ii &&& B.word c ii).getLsbD t := by
  simp only [Ok.bind_iff, Ok_get, Mem.Ok_put]
  refine ⟨wA.at hi h0, wB.at hc (by omega), hk, ?_⟩
  refine Ok.forUp (P := fun ii (m' : Mem Word) => m'.size = m.size ∧ (∀ l, l ≠ k → m'.cell l = m.cell l) ∧ ∀ t, (m'.cell k).getLsbD t =
    xsum ii fun y => (A.word i y &&& B.word c y).getLsbD t) h0
    ⟨rfl, fun l hl => if_neg hl, fun t => by simp [xsum]⟩ ?_ (fun m' h => h)
  intro ii m' h1 h2 ⟨e1, e2, e3⟩
  simp only [Ok.bind_iff, Ok_get, Mem.Ok_put, Mem.Ok_get]
  refine ⟨by omega, wA.at hi h2, wB.at hc (by omega), by omega, e1, fun l hl => by rw [if_neg hl]; exact e2 l hl, fun t => ?_⟩
  rw [if_pos trivial, BitVec.getLsbD_xor, e3, xsum]

theorem naive_row (wA : A.Wf) (wB : B.Wf) (hw : B.width = A.width) (h0 : 0 < A.width) {i : Nat} (hi : i < A.nrows) {s : Mzd × Mem Word}
    (ws : s.1.Wf) (hs : s.1.nrows = A.nrows) (hs2 : s.1.ncols = B.nrows) (hp : s.2.size = 64) :
    Ok (mul_naive_row A B i s) fun s' => Sh s.1 s'.1 ∧ s'.2.size = 64 ∧ ∀ a b, s'.1.bit a b =
      (s.1.bit a b ^^ (decide (a = i ∧ b < B.nrows) && dot A B i b)) := by
  unfold mul_naive_row
  simp only []
  have hwid : s.1.width = (B.nrows + 63) / 64 := by unfold Mzd.width; rw [hs2]
  refine Ok.bind (P := fun (s' : Mzd × Mem Word) => Sh s.1 s'.1 ∧ s'.2.size = 64 ∧ ∀ a b, s'.1.bit a b =
      (s.1.bit a b ^^ (decide (a = i ∧ b < 64 * (B.nrows / 64)) && dot A B i b))) ?_ ?_
  · have heol : (if s.1.ncols % 64 ≠ 0 then s.1.width - 1 else s.1.width) = B.nrows / 64 := by
      rw [hwid, hs2]; split <;> omega
    rw [heol]
    refine Ok.forUp (P := fun j (s' : Mzd × Mem Word) => Sh s.1 s'.1 ∧ s'.2.size = 64 ∧ ∀ a b, s'.1.bit a b =
      (s.1.bit a b ^^ (decide (a = i ∧ b < 64 * j) && dot A B i b))) (Nat.zero_le _) ⟨Sh.refl _, hp, fun a b => by
        rw [decide_eq_false (by omega)]; simp⟩ ?_ (fun s' h => h)
    intro j s' _ hj ⟨sh, hp', hb'⟩
    refine Ok.bind (P := fun (m : Mem Word) => m.size = 64 ∧ ∀ k < 64, ∀ t, (m.cell k).getLsbD t = xsum A.width fun ii => (A.word i ii &&& B.word (64 * j + k) ii).getLsbD t) ?_ ?_
    · refine Ok.forUp (P := fun kk (m : Mem Word) => m.size = 64 ∧ ∀ k < kk, ∀ t, (m.cell k).getLsbD t =
        xsum A.width fun ii => (A.word i ii &&& B.word (64 * j + k) ii).getLsbD t) (Nat.zero_le _) ⟨hp', fun k hk => absurd hk (by omega)⟩ ?_ (fun m h => h)
      intro k m _ hk ⟨e1, e2⟩
      refine (naive_down wA wB hw h0 hi (show 64 * j + k < B.nrows by omega) (show k < m.size by omega)).mono ?_
      intro m' ⟨e3, e4, e5⟩
      refine ⟨by rw [e3, e1], fun k' hk' t => ?_⟩
      by_cases hkk : k' = k
      · rw [hkk, e5]
      · rw [e4 _ hkk, e2 k' (by omega)]
    · intro m ⟨e1, e2⟩
      have hat := (sh.wf ws).at (i := i) (j := j) (by rw [sh.nrows, hs]; exact hi) (by rw [sh.width, hwid]; omega)
      rw [get_eq hat, C_ok_bind, put_eq _ hat, C_ok_bind, Ok.pure_iff]
      refine ⟨sh.trans (Sh.set _ _ _ _), e1, fun a b => ?_⟩
      show (Mzd.set _ _ _ _).bit a b = _
      rw [bit_set]
      by_cases ha : a = i ∧ b / 64 = j
      · have hlt : b % 64 < 64 := by omega
        rw [if_pos ha, BitVec.getLsbD_xor, parity64 _ hlt, xsum_congr fun t _ => e2 _ hlt t, dot_words, ha.1, decide_eq_true (by omega),
          show 64 * j + b % 64 = b by omega]
        have : (s'.1.word i j).getLsbD (b % 64) = s'.1.bit i b := by unfold Mzd.bit; rw [ha.2]
        rw [this, hb', decide_eq_false (show ¬ (i = i ∧ b < 64 * j) by omega)]
        simp
      · rw [if_neg ha, hb']
        congr 2
        rw [decide_eq_decide]
        omega
  intro s' ⟨sh, hp', hb'⟩
  have heol : (if s.1.ncols % 64 ≠ 0 then s.1.width - 1 else s.1.width) = B.nrows / 64 := by
    rw [hwid, hs2]; split <;> omega
  rw [heol, sh.width, sh.ncols, hs2, hwid]
  by_cases hr : B.nrows / 64 ≠ (B.nrows + 63) / 64
  · rw [if_pos hr]
    refine Ok.bind (P := fun (m : Mem Word) => m.size = 64 ∧ ∀ k < B.nrows % 64, ∀ t, (m.cell k).getLsbD t =
      xsum A.width fun ii => (A.word i ii &&& B.word (64 * (B.nrows / 64) + k) ii).getLsbD t) ?_ ?_
    · refine Ok.forUp (P := fun kk (m : Mem Word) => m.size = 64 ∧ ∀ k < kk, ∀ t, (m.cell k).getLsbD t =
        xsum A.width fun ii => (A.word i ii &&& B.word (64 * (B.nrows / 64) + k) ii).getLsbD t) (Nat.zero_le _) ⟨hp', fun k hk => absurd hk (by omega)⟩ ?_ (fun m h => h)
      intro k m _ hk ⟨e1, e2⟩
      refine (naive_up wA wB hw h0 hi (show 64 * (B.nrows / 64) + k < B.nrows by omega) (show k < m.size by omega)).mono ?_
      intro m' ⟨e3, e4, e5⟩
      refine ⟨by rw [e3, e1], fun k' hk' t => ?_⟩
      by_cases hkk : k' = k
      · rw [hkk, e5]
      · rw [e4 _ hkk, e2 k' (by omega)]
    · intro m ⟨e1, e2⟩
      have hat := (sh.wf ws).at (i := i) (j := B.nrows / 64) (by rw [sh.nrows, hs]; exact hi) (by rw [sh.width, hwid]; omega)
      rw [get_eq hat, C_ok_bind, put_eq _ hat, C_ok_bind, Ok.pure_iff]
      refine ⟨sh.trans (Sh.set _ _ _ _), e1, fun a b => ?_⟩
      show (Mzd.set _ _ _ _).bit a b = _
      rw [bit_set]
      by_cases ha : a = i ∧ b / 64 = B.nrows / 64
      · have hlt : b % 64 < 64 := by omega
        have hhigh : s'.1.high.getLsbD (b % 64) = decide (b < B.nrows) := by
          rw [sh.high, high_bit s.1 (by rw [hwid]; omega) (by rw [hs2]; omega), hs2]
        rw [if_pos ha, BitVec.getLsbD_xor, BitVec.getLsbD_and, parity64 _ hlt, hhigh]
        have : (s'.1.word i (B.nrows / 64)).getLsbD (b % 64) = s'.1.bit i b := by unfold Mzd.bit; rw [ha.2]
        rw [this, hb', decide_eq_false (show ¬ (i = i ∧ b < 64 * (B.nrows / 64)) by omega), ha.1]
        by_cases hbn : b < B.nrows
        · rw [xsum_congr fun t _ => e2 (b % 64) (by omega) t, dot_words, decide_eq_true hbn, decide_eq_true (show i = i ∧ b < B.nrows from ⟨rfl, hbn⟩),
            show 64 * (B.nrows / 64) + b % 64 = b by omega]
          simp
        · rw [decide_eq_false hbn, decide_eq_false (show ¬ (i = i ∧ b < B.nrows) by omega)]
          simp
      · rw [if_neg ha, hb']
        congr 2
        rw [decide_eq_decide]
        omega
  · rw [if_neg hr, Ok.pure_iff]
    refine ⟨sh, hp', fun a b => ?_⟩
    rw [hb', show 64 * (B.nrows / 64) = B.nrows by omega]

/-- The product with the transpose `B` of the second factor. -/
theorem addmul_naive (wA : A.Wf) (wB : B.Wf) (hw : B.width = A.width) (h0 : 0 < A.width) {C' : Mzd}
    (ws : C'.Wf) (hs : C'.nrows = A.nrows) (hs2 : C'.ncols = B.nrows) :
    Ok (_mzd_addmul_naive C' A B) fun D => Sh C' D ∧ ∀ a b, D.bit a b = (C'.bit a b ^^ (decide (a < A.nrows ∧ b < B.nrows) && dot A B a b)) := by
  unfold _mzd_addmul_naive
  have hrow : ∀ i < A.nrows, ∀ s : Mzd × Mem Word, (Sh C' s.1 ∧ s.2.size = 64 ∧ ∀ a b, s.1.bit a b = (C'.bit a b ^^ (decide (a < i ∧ b < B.nrows) && dot A B a b))) →
      Ok (mul_naive_row A B i s) fun s' => Sh C' s'.1 ∧ s'.2.size = 64 ∧ ∀ a b, s'.1.bit a b = (C'.bit a b ^^ (decide (a < i + 1 ∧ b < B.nrows) && dot A B a b)) := by
    intro i hi s ⟨sh, hsz, hb⟩
    refine (naive_row wA wB hw h0 hi (sh.wf ws) (by rw [sh.nrows, hs]) (by rw [sh.ncols, hs2]) hsz).mono ?_
    intro s' ⟨sh', hsz', hb'⟩
    refine ⟨sh.trans sh', hsz', fun a b => ?_⟩
    rw [hb', hb]
    by_cases ha : a = i
    · rw [ha, decide_eq_false (show ¬ (i < i ∧ b < B.nrows) by omega), show decide (i < i + 1 ∧ b < B.nrows) = decide (i = i ∧ b < B.nrows) from
        decide_eq_decide.2 (by omega)]
      simp
    · rw [decide_eq_false (show ¬ (a = i ∧ b < B.nrows) from fun h => ha h.1), show decide (a < i + 1 ∧ b < B.nrows) = decide (a < i ∧ b < B.nrows) from
        decide_eq_decide.2 (by omega)]
      simp
  rw [hs]
  refine Ok.bind (P := fun (s : Mzd × Mem Word) => Sh C' s.1 ∧ s.2.size = 64 ∧ ∀ a b, s.1.bit a b = (C'.bit a b ^^ (decide (a < A.nrows - A.nrows % 512 ∧ b < B.nrows) && dot A B a b))) ?_ ?_
  · refine Ok.forUp (P := fun g (s : Mzd × Mem Word) => Sh C' s.1 ∧ s.2.size = 64 ∧ ∀ a b, s.1.bit a b = (C'.bit a b ^^ (decide (a < 512 * g ∧ b < B.nrows) && dot A B a b))) (Nat.zero_le _) ⟨Sh.refl _, rfl, fun a b => by
        rw [decide_eq_false (by omega)]; simp⟩ ?_ ?_
    · intro g s _ hg h
      refine Ok.forUp (P := fun i (s : Mzd × Mem Word) => Sh C' s.1 ∧ s.2.size = 64 ∧ ∀ a b, s.1.bit a b = (C'.bit a b ^^ (decide (a < i ∧ b < B.nrows) && dot A B a b))) (by omega) h ?_ (fun s h => h)
      intro i s _ hi h
      exact hrow i (by omega) s h
    · intro s h
      rw [show A.nrows - A.nrows % 512 = 512 * (A.nrows / 512) by omega]
      exact h
  · intro s h
    rw [Ok.bind_iff]
    refine Ok.forUp (P := fun i (s : Mzd × Mem Word) => Sh C' s.1 ∧ s.2.size = 64 ∧ ∀ a b, s.1.bit a b = (C'.bit a b ^^ (decide (a < i ∧ b < B.nrows) && dot A B a b))) (by omega) h ?_ ?_
    · intro i s _ hi h
      exact hrow i hi s h
    · intro s h
      rw [Ok.pure_iff]
      exact ⟨h.1, h.2.2⟩

theorem mul_naive (wA : A.Wf) (wB : B.Wf) (hw : B.width = A.width) (h0 : 0 < A.width) {C' : Mzd}
    (ws : C'.Wf) (hs : C'.nrows = A.nrows) (hs2 : C'.ncols = B.nrows) (hB : 0 < B.nrows) (hz : ∀ a b, C'.bit a b = false) :
    Ok (_mzd_mul_naive C' A B) fun D => Sh C' D ∧ ∀ a b, D.bit a b = (decide (a < A.nrows ∧ b < B.nrows) && dot A B a b) := by
  unfold _mzd_mul_naive
  refine Ok.bind (clear_all ws (by omega)) ?_
  intro C1 ⟨sh1, hC1⟩
  have hz1 : ∀ a b, C1.bit a b = false := fun a b => by rw [hC1, hz]; split <;> rfl
  refine (addmul_naive wA wB hw h0 (sh1.wf ws) (by rw [sh1.nrows, hs]) (by rw [sh1.ncols, hs2])).mono ?_
  intro D ⟨sh, hD⟩
  exact ⟨sh1.trans sh, fun a b => by rw [hD, hz1, Bool.false_xor]⟩

end WB.m4w
