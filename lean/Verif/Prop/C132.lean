import Verif.Proof.M4riBits

/-!
# C132 — groups of up to 64 bits in matrices of M4RI (`/repo/test/github1_M4RI/include/m4ri/mzd.h`, `mzd_read_bits`, `mzd_xor_bits`, `mzd_and_bits`, `mzd_clear_bits`)
-/
namespace WB.m4w

variable {M : Mzd} {x y n : Nat}

/-- The group of `n` entries from row `x`, column `y` on lies in the matrix. -/
def InGroup (M : Mzd) (x y n : Nat) : Prop := M.Wf ∧ x < M.nrows ∧ 0 < n ∧ n ≤ 64 ∧ y + n ≤ M.ncols

/-- `N` arises from `M` when bit `t` of the group becomes `f t` of what it was; no other bit of any row changes, not even before the first or behind the last column. -/
def GroupTo (M N : Mzd) (x y n : Nat) (f : Nat → Bool → Bool) : Prop :=
  N.nrows = M.nrows ∧ N.ncols = M.ncols ∧ N.off = M.off ∧ (∀ a b, b < M.off → N.mem.cell a b = M.mem.cell a b) ∧ ∀ a b, N.bit a b = if a = x ∧ y ≤ b ∧ b < y + n then f (b - y) (M.bit a b) else M.bit a b

/-- C132, full statement: the four functions read, add, multiply by and clear the bits of the group, given or returned in the lowest `n` bits of a word. -/
def C132_statement : Prop := ∀ {M : Mzd} {x y n : Nat}, InGroup M x y n →
  (∃ v, mzd_read_bits M x y n = .ok v ∧ ∀ t, v.getLsbD t = (decide (t < n) && M.bit x (y + t))) ∧
  (∃ N, mzd_clear_bits M x y n = .ok N ∧ GroupTo M N x y n fun _ _ => false) ∧
  ∀ v : Word, (∀ t, n ≤ t → v.getLsbD t = false) →
    (∃ N, mzd_xor_bits M x y n v = .ok N ∧ GroupTo M N x y n fun t b => b ^^ v.getLsbD t) ∧ ∃ N, mzd_and_bits M x y n v = .ok N ∧ GroupTo M N x y n fun t b => b && v.getLsbD t

theorem InGroup.last (h : InGroup M x y n) : (y + n - 1) / 64 < M.width := by
  have h0 := h.2.2.2.2
  have h1 := h.2.2.1
  unfold Mzd.width
  omega

/-- C132: `mzd_read_bits` returns the bits of the group. -/
theorem C132_read (h : InGroup M x y n) : ∃ v, mzd_read_bits M x y n = .ok v ∧ ∀ t, v.getLsbD t = (decide (t < n) && M.bit x (y + t)) :=
  (read_bits h.1 h.2.1 h.2.2.1 h.2.2.2.1 h.last).elim fun v hv => ⟨v, hv.1, hv.2⟩

/-- C132: `mzd_clear_bits` clears the group and nothing else. -/
theorem C132_clear (h : InGroup M x y n) : ∃ N, mzd_clear_bits M x y n = .ok N ∧ GroupTo M N x y n fun _ _ => false := by
  obtain ⟨N, e, sh, hN⟩ := clear_bits_all h.1 h.2.1 h.2.2.1 h.2.2.2.1 h.last
  exact ⟨N, e, sh.nrows, sh.ncols, sh.off, sh.before, hN⟩

/-- C132: `mzd_xor_bits` adds the bits to the group and changes nothing else. -/
theorem C132_xor (h : InGroup M x y n) {v : Word} (hv : ∀ t, n ≤ t → v.getLsbD t = false) :
    ∃ N, mzd_xor_bits M x y n v = .ok N ∧ GroupTo M N x y n fun t b => b ^^ v.getLsbD t := by
  obtain ⟨N, e, sh, hN⟩ := xor_bits_all h.1 h.2.1 h.2.2.1 h.2.2.2.1 h.last hv
  refine ⟨N, e, sh.nrows, sh.ncols, sh.off, sh.before, fun a b => ?_⟩
  rw [hN]
  by_cases g : a = x ∧ y ≤ b ∧ b < y + n
  · rw [if_pos g, decide_eq_true g, Bool.true_and]
  · rw [if_neg g, decide_eq_false g]; simp

/-- C132, what holds for `mzd_and_bits`: a group of 64 bits that is a whole word. -/
theorem C132_and_partial (h : InGroup M x y 64) (hy : y % 64 = 0) (v : Word) : ∃ N, mzd_and_bits M x y 64 v = .ok N ∧ GroupTo M N x y 64 fun t b => b && v.getLsbD t := by
  obtain ⟨N, e, sh, hN⟩ := and_bits_all h.1 h.2.1 h.2.2.1 h.2.2.2.1 h.last v
  refine ⟨N, e, sh.nrows, sh.ncols, sh.off, sh.before, fun a b => ?_⟩
  rw [hN]
  by_cases g : a = x ∧ y ≤ b ∧ b < y + 64
  · rw [if_pos g, if_pos (by omega), decide_eq_true g.2, show 64 - 64 + (b - y) = b - y by omega, Bool.true_and]
  · rw [if_neg g, if_neg (by omega)]

/-- C132, what goes wrong in all other cases: the bits are taken from the highest `n` of the word, and all other bits of the one or two words that the group lies in are cleared, entries of the
matrix and bits behind it. -/
theorem C132_and_violated (h : InGroup M x y n) (v : Word) : ∃ N, mzd_and_bits M x y n v = .ok N ∧ N.nrows = M.nrows ∧ N.ncols = M.ncols ∧
    (∀ t < n, N.bit x (y + t) = (M.bit x (y + t) && v.getLsbD (64 - n + t))) ∧
    (∀ b, y / 64 ≤ b / 64 → b / 64 ≤ (y + n - 1) / 64 → ¬ (y ≤ b ∧ b < y + n) → N.bit x b = false) ∧
    (∀ b, ¬ (y / 64 ≤ b / 64 ∧ b / 64 ≤ (y + n - 1) / 64) → N.bit x b = M.bit x b) ∧ ∀ a b : Nat, a ≠ x → N.bit a b = M.bit a b := by
  obtain ⟨N, e, sh, hN⟩ := and_bits_all h.1 h.2.1 h.2.2.1 h.2.2.2.1 h.last v
  refine ⟨N, e, sh.nrows, sh.ncols, fun t ht => ?_, fun b h1 h2 h3 => ?_, fun b h1 => ?_, fun a b ha => ?_⟩
  · rw [hN, if_pos (by omega), decide_eq_true (by omega), show y + t - y = t by omega, Bool.true_and]
  · rw [hN, if_pos ⟨rfl, h1, h2⟩, decide_eq_false h3]; simp
  · rw [hN, if_neg (fun g => h1 g.2)]
  · rw [hN, if_neg (fun g => ha g.1)]

/-- C132: a group without bits shifts by 64. -/
theorem C132_and_empty_violated (M : Mzd) (x y : Nat) (v : Word) : mzd_and_bits M x y 0 v = .error .overflow := rfl

/-- One row of 70 columns, all ones, also behind them. -/
def exGroup : Mzd := ⟨1, 70, 0, ⟨1, 2, fun _ _ => 0xffffffffffffffff#64⟩⟩

theorem exGroup_in : InGroup exGroup 0 60 8 := ⟨⟨Nat.le_refl 1, by decide⟩, by decide, by decide, by decide, by decide⟩

/-- C132: the full statement is false. -/
theorem C132_violated : ¬ C132_statement := by
  intro h
  obtain ⟨_, N, e, _, _, _, _, hN⟩ := (h exGroup_in).2.2 0xff#64 (fun t ht => by
    rcases Nat.lt_or_ge t 64 with h64 | h64
    · exact (show ∀ t : Fin 64, 8 ≤ (t : Nat) → (0xff#64).getLsbD t = false by decide) ⟨t, h64⟩ ht
    · exact BitVec.getLsbD_of_ge _ _ h64)
  obtain ⟨N', e', _, _, _, h2, _⟩ := C132_and_violated exGroup_in 0xff#64
  have hE : N = N' := by rw [e] at e'; exact Except.ok.inj e'
  have h3 := hN 0 0
  rw [hE, h2 0 (by decide) (by decide) (by decide)] at h3
  exact absurd h3 (by decide)

/-- With eight ones given in the lowest bits nothing is left of the 70 ones; in the highest bits, the group is left. -/
example : (mzd_and_bits exGroup 0 60 8 0xff#64).map (fun N => (N.word 0 0, N.word 0 1)) = .ok (0#64, 0#64) ∧
    (mzd_and_bits exGroup 0 60 8 0xff00000000000000#64).map (fun N => (N.word 0 0, N.word 0 1)) = .ok (0xf000000000000000#64, 0xf#64) := by
  refine ⟨?_, ?_⟩ <;> with_unfolding_all rfl

/-- Reading, adding and clearing the group, which lies in two words. -/
example : mzd_read_bits exGroup 0 60 8 = .ok 0xff#64 ∧ (mzd_xor_bits exGroup 0 60 8 0x81#64).map (fun N => (N.word 0 0, N.word 0 1)) = .ok (0xefffffffffffffff#64, 0xfffffffffffffff7#64) ∧
    (mzd_clear_bits exGroup 0 60 8).map (fun N => (N.word 0 0, N.word 0 1)) = .ok (0x0fffffffffffffff#64, 0xfffffffffffffff0#64) := by
  refine ⟨?_, ?_, ?_⟩ <;> with_unfolding_all rfl

/-- The theorems apply to it. -/
example : (∃ v, mzd_read_bits exGroup 0 60 8 = .ok v ∧ ∀ t, v.getLsbD t = (decide (t < 8) && exGroup.bit 0 (60 + t))) ∧
    ∃ N, mzd_and_bits exGroup 0 0 64 5#64 = .ok N ∧ GroupTo exGroup N 0 0 64 fun t b => b && (5#64).getLsbD t :=
  ⟨C132_read exGroup_in, C132_and_partial ⟨exGroup_in.1, by decide, by decide, by decide, by decide⟩ rfl _⟩

end WB.m4w
