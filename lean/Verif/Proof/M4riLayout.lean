import Mathlib.Tactic.Ring
import Mathlib.Tactic.Linarith
import Verif.Proof.Wp
import Verif.SpecM4riLayout

/-! # Lemmas for C112 -/
namespace WB.m4l

theorem ok_bind {α β : Type} (a : α) (f : α → C β) : ((Except.ok a : C α) >>= f) = f a := rfl

theorem i32_ok {x : Int} (h1 : 0 ≤ x) (h2 : x < 2 ^ 31) : i32 x = .ok x := if_pos ⟨by omega, h2⟩

theorem i32_some {x y : Int} (h : i32 x = .ok y) : y = x ∧ x < 2 ^ 31 := by
  unfold i32 at h
  split at h
  · rename_i hx
    exact ⟨(Except.ok.inj h).symm, hx.2⟩
  · exact absurd h (by simp)

/-- What is known of a matrix: the rows `R` of the matrix that owns the blocks, and the word of the first column. -/
structure WF (M : Lay) (R wo : Nat) : Prop where
  roff : M.roff < 2 ^ M.blog
  inside : M.base * 2 ^ M.blog + M.roff + M.nrows ≤ R
  rows : ∀ i, M.rows i = ((M.base * 2 ^ M.blog + M.roff + i) / 2 ^ M.blog, (((M.base * 2 ^ M.blog + M.roff + i) % 2 ^ M.blog * M.rowstride + wo : Nat) : Int))
  offv : M.offv = ((M.roff * M.rowstride + wo : Nat) : Int)
  multi : M.multi = decide (2 ^ M.blog < M.roff + M.nrows)
  width : wo + M.width ≤ M.rowstride
  widthEq : M.width = (M.ncols + 63) / 64
  size : ∀ k, M.size k = min (2 ^ M.blog) (R - k * 2 ^ M.blog) * M.rowstride
  small : 2 ^ M.blog * M.rowstride ≤ 2 ^ 27
  RB : R + 2 ^ M.blog < 2 ^ 31

theorem blockLog_spec (b : Nat) (h : 0 < b) : 2 ^ blockLog b ≤ b := by
  induction b using Nat.strongRecOn with
  | ind b ih =>
    rw [blockLog]
    split
    · simp; omega
    · rename_i h2
      have := ih (b / 2) (by omega) (by omega)
      rw [pow_succ]; omega

theorem blockSizes_aux (full : Nat) : ∀ (n last : Nat) (f : Nat → Nat) (k : Nat),
    ((List.range n).reverse.foldl (fun (s : (Nat → Nat) × Nat) i => (fun k => if k = i then s.2 else s.1 k, full)) (f, last)).1 k =
      if k + 1 < n then full else if k + 1 = n then last else f k := by
  intro n
  induction n with
  | zero => intro last f k; simp
  | succ n ih =>
    intro last f k
    rw [List.range_succ, List.reverse_append, List.reverse_singleton, List.singleton_append, List.foldl_cons, ih]
    by_cases h1 : k + 1 < n
    · rw [if_pos h1, if_pos (by omega)]
    · rw [if_neg h1]
      by_cases h2 : k + 1 = n
      · rw [if_pos h2, if_pos (by omega)]
      · rw [if_neg h2]
        by_cases h3 : k = n
        · rw [if_pos h3, if_neg (by omega), if_pos (by omega)]
        · rw [if_neg h3, if_neg (by omega), if_neg (by omega)]

theorem blockSizes_spec {n B r stride : Nat} (hB : 0 < B) (hr : 0 < r) (hn : n = (r + B - 1) / B) (k : Nat) :
    blockSizes n ((r - (n - 1) * B) * stride) (B * stride) k = min B (r - k * B) * stride := by
  unfold blockSizes
  rw [blockSizes_aux]
  have h1 : n * B ≤ r + B - 1 := by rw [hn]; exact Nat.div_mul_le_self _ _
  have h2 : r + B - 1 < (n + 1) * B := by rw [hn]; exact Nat.lt_mul_of_div_lt (Nat.lt_succ_self _) hB
  rw [Nat.succ_mul] at h2
  have hn0 : 0 < n := by
    by_contra hc
    have : n = 0 := by omega
    rw [this] at h2; omega
  have h3 : (n - 1) * B = n * B - B := by rw [Nat.sub_mul, Nat.one_mul]
  split
  · rename_i hk
    have : (k + 2) * B ≤ n * B := Nat.mul_le_mul_right _ (by omega)
    have e : (k + 2) * B = k * B + 2 * B := by ring
    rw [Nat.min_eq_left (by omega)]
  · split
    · rename_i _ hk
      rw [show n - 1 = k by omega, Nat.min_eq_right]
      have e : n * B = k * B + B := by rw [← hk]; ring
      omega
    · have : n * B ≤ k * B := Nat.mul_le_mul_right _ (by omega)
      rw [show r - k * B = 0 by omega]; simp

theorem init_wf {r c : Nat} {M : Lay} (hr : 0 < r) (hc : 0 < c) (h : mzd_init r c = .ok M) : WF M r 0 ∧ M.nrows = r ∧ M.ncols = c := by
  unfold mzd_init at h
  cases h1 : i32 (c + 63) with
  | error e => rw [h1] at h; exact absurd h (by simp [bind, Except.bind])
  | ok x =>
  obtain ⟨rfl, hx⟩ := i32_some h1
  rw [h1, ok_bind] at h
  have ex : ((c : Int) + 63).toNat = c + 63 := by omega
  rw [ex] at h
  have hw : 0 < (c + 63) / 64 := by omega
  have hw2 : (c + 63) / 64 < 2 ^ 25 := by omega
  simp only [] at h
  generalize hst : (if (c + 63) / 64 < 1 ∨ (c + 63) / 64 % 2 = 0 then (c + 63) / 64 else (c + 63) / 64 + 1) = stride at h
  have hs1 : (c + 63) / 64 ≤ stride := by rw [← hst]; split <;> omega
  have hs2 : stride ≤ 2 ^ 25 := by rw [← hst]; split <;> omega
  cases h2 : i32 (r + 1) with
  | error e => rw [h2] at h; exact absurd h (by simp [bind, Except.bind])
  | ok x =>
  rw [h2, ok_bind] at h
  have hq : 0 < 2 ^ 27 / stride := Nat.div_pos (by omega) (by omega)
  have hb := blockLog_spec _ hq
  generalize blockLog (2 ^ 27 / stride) = bl at h hb
  have hB : 0 < 2 ^ bl := Nat.pos_of_ne_zero (by positivity)
  have hsm : 2 ^ bl * stride ≤ 2 ^ 27 := (Nat.mul_le_mul_right _ hb).trans (Nat.div_mul_le_self _ _)
  cases h3 : i32 (r + (2 ^ bl : Nat)) with
  | error e => rw [h3] at h; exact absurd h (by simp [bind, Except.bind])
  | ok x =>
  obtain ⟨rfl, hx3⟩ := i32_some h3
  rw [h3, ok_bind] at h
  have ex3 : ((r : Int) + (2 ^ bl : Nat)).toNat = r + 2 ^ bl := by omega
  rw [ex3] at h
  have := Except.ok.inj h
  subst this
  refine ⟨⟨hB, by simp, fun i => ?_, by simp, ?_, by simpa using hs1, rfl, fun k => ?_, hsm, by show r + 2 ^ bl < 2 ^ 31; omega⟩, rfl, rfl⟩
  · show (i >>> bl, (((i &&& (2 ^ bl - 1)) * stride : Nat) : Int)) = _
    rw [Nat.shiftRight_eq_div_pow, Nat.and_two_pow_sub_one_eq_mod]
    simp
  · show decide (1 < (r + 2 ^ bl - 1) / 2 ^ bl) = decide (2 ^ bl < 0 + r)
    rw [decide_eq_decide, Nat.lt_div_iff_mul_lt hB]
    omega
  · exact blockSizes_spec hB hr rfl k

theorem split {b B o l i : Nat} (hB : 0 < B) : (b * B + o + (l + i)) = (b + (o + l) / B) * B + (o + l) % B + i := by
  have := Nat.div_add_mod (o + l) B
  rw [Nat.add_mul, Nat.mul_comm ((o + l) / B)]; omega

theorem divB {b B x : Nat} (hB : 0 < B) : (b * B + x) / B = b + x / B ∧ (b * B + x) % B = x % B := by
  rw [Nat.mul_comm, Nat.mul_add_div hB, Nat.mul_add_mod]; exact ⟨rfl, rfl⟩

theorem window_wf {M : Lay} {R wo lowr lowc highr highc : Nat} (h : WF M R wo) (h1 : lowr ≤ highr) (h2 : lowr ≤ M.nrows) (h3 : lowc ≤ highc) (h4 : highc ≤ M.ncols)
    (h64 : lowc % 64 = 0) (hm : lowr < M.nrows ∨ M.roff + lowr ≠ 2 ^ M.blog ∨ M.multi = true) :
    ∃ W, mzd_init_window M lowr lowc highr highc = .ok W ∧ WF W R (wo + lowc / 64) ∧ W.nrows = min highr M.nrows - lowr ∧ W.ncols = highc - lowc ∧
      ∀ i, W.rows i = ((M.rows (lowr + i)).1, (M.rows (lowr + i)).2 + (lowc / 64 : Nat)) := by
  unfold mzd_init_window
  have hB : 0 < 2 ^ M.blog := Nat.pos_of_ne_zero (by positivity)
  have hro := h.roff
  have hin := h.inside
  have hrw := h.rows
  have hmu := h.multi
  have hof := h.offv
  have hsp : ∀ i, M.base * 2 ^ M.blog + M.roff + (lowr + i) = (M.base + (M.roff + lowr) / 2 ^ M.blog) * 2 ^ M.blog + (M.roff + lowr) % 2 ^ M.blog + i := fun i => split hB
  have hmodlt : (M.roff + lowr) % 2 ^ M.blog < 2 ^ M.blog := Nat.mod_lt _ hB
  rw [if_neg (by omega)]
  simp only [Nat.shiftRight_eq_div_pow, Nat.and_two_pow_sub_one_eq_mod]
  have hsk : (M.roff + lowr) / 2 ^ M.blog = 0 ∨ M.multi = true := by
    by_cases hc : M.multi = true
    · exact .inr hc
    · left
      rw [hmu, decide_eq_true_eq] at hc
      apply Nat.div_eq_of_lt
      rcases hm with hm | hm | hm
      · omega
      · omega
      · rw [hmu, decide_eq_true_eq] at hm; omega
  rw [if_neg (not_not.2 hsk)]
  have hrow : ∀ i, ((M.rows (lowr + i)).1, (M.rows (lowr + i)).2 + (lowc / 64 : Nat)) =
      (((M.base + (M.roff + lowr) / 2 ^ M.blog) * 2 ^ M.blog + (M.roff + lowr) % 2 ^ M.blog + i) / 2 ^ M.blog,
        ((((M.base + (M.roff + lowr) / 2 ^ M.blog) * 2 ^ M.blog + (M.roff + lowr) % 2 ^ M.blog + i) % 2 ^ M.blog * M.rowstride + (wo + lowc / 64) : Nat) : Int)) := fun i => by
    rw [hrw, hsp]
    simp only [Prod.mk.injEq, true_and]
    push_cast; ring
  have hoff : M.offv + (lowc / 64 : Nat) + (((M.roff + lowr) % 2 ^ M.blog : Nat) - (M.roff : Int)) * M.rowstride =
      (((M.roff + lowr) % 2 ^ M.blog * M.rowstride + (wo + lowc / 64) : Nat) : Int) := by
    rw [hof]; push_cast; ring
  have hw : wo + lowc / 64 + (highc - lowc + 63) / 64 ≤ M.rowstride := by
    have := h.width
    have := h.widthEq
    omega
  refine ⟨_, if_pos ?_, ⟨hmodlt, ?_, hrow, hoff, ?_, hw, rfl, h.size, h.small, h.RB⟩, ?_, rfl, fun i => rfl⟩
  · right
    refine Prod.ext ?_ ?_
    · show M.base + (M.roff + lowr) / 2 ^ M.blog = _
      show _ = ((M.rows (lowr + 0)).1, (M.rows (lowr + 0)).2 + (lowc / 64 : Nat)).1
      rw [hrow]
      show _ = ((M.base + (M.roff + lowr) / 2 ^ M.blog) * 2 ^ M.blog + (M.roff + lowr) % 2 ^ M.blog + 0) / 2 ^ M.blog
      rw [Nat.add_zero, (divB hB).1, Nat.div_eq_of_lt hmodlt, Nat.add_zero]
    · refine hoff.trans ?_
      show _ = ((M.rows (lowr + 0)).1, (M.rows (lowr + 0)).2 + (lowc / 64 : Nat)).2
      rw [hrow]
      show _ = ((((M.base + (M.roff + lowr) / 2 ^ M.blog) * 2 ^ M.blog + (M.roff + lowr) % 2 ^ M.blog + 0) % 2 ^ M.blog * M.rowstride + (wo + lowc / 64) : Nat) : Int)
      rw [Nat.add_zero, (divB hB).2, Nat.mod_mod]
  · show (M.base + (M.roff + lowr) / 2 ^ M.blog) * 2 ^ M.blog + (M.roff + lowr) % 2 ^ M.blog + min (highr - lowr) (M.nrows - lowr) ≤ R
    have := hsp 0
    omega
  · show (decide (0 < (((M.roff + lowr) % 2 ^ M.blog : Nat) + ((min (highr - lowr) (M.nrows - lowr) : Nat) : Int) - 1) >>> M.blog) && M.multi) =
      decide (2 ^ M.blog < (M.roff + lowr) % 2 ^ M.blog + min (highr - lowr) (M.nrows - lowr))
    generalize hn : min (highr - lowr) (M.nrows - lowr) = n
    have hle : (M.roff + lowr) % 2 ^ M.blog ≤ M.roff + lowr := Nat.mod_le _ _
    have key : (0 < (((M.roff + lowr) % 2 ^ M.blog : Nat) + ((n : Nat) : Int) - 1) >>> M.blog) ↔ 2 ^ M.blog < (M.roff + lowr) % 2 ^ M.blog + n := by
      rw [Int.shiftRight_eq_div_pow]
      have hBi : (0 : Int) < ((2 ^ M.blog : Nat) : Int) := by exact_mod_cast hB
      constructor
      · intro hp
        have := (Int.le_ediv_iff_mul_le hBi).1 (show (1 : Int) ≤ _ from hp)
        rw [one_mul] at this
        omega
      · intro hp
        have := (Int.le_ediv_iff_mul_le hBi (a := 1) (b := (((M.roff + lowr) % 2 ^ M.blog : Nat) + ((n : Nat) : Int) - 1))).2 (by rw [one_mul]; omega)
        omega
    rw [hmu, ← Bool.decide_and, decide_eq_decide, key]
    omega
  · show min (highr - lowr) (M.nrows - lowr) = _
    omega

theorem window_inv {M W : Lay} {lowr lowc highr highc : Nat} (h : mzd_init_window M lowr lowc highr highc = .ok W) : lowc % 64 = 0 ∧ ((M.roff + lowr) >>> M.blog = 0 ∨ M.multi = true) := by
  unfold mzd_init_window at h
  split at h
  · exact absurd h (by simp)
  · rename_i h1
    refine ⟨not_not.1 h1, ?_⟩
    simp only [] at h
    split at h
    · exact absurd h (by simp)
    · rename_i h2; exact not_not.1 h2

theorem Made.wf {M : Lay} (h : Made M) : ∃ R wo, WF M R wo := by
  induction h with
  | init hr hc e => exact ⟨_, _, (init_wf hr hc e).1⟩
  | @window M W lowr lowc highr highc _ h1 h2 h3 h4 e ih =>
    obtain ⟨R, wo, hw⟩ := ih
    obtain ⟨h64, hs⟩ := window_inv e
    have hB : 0 < 2 ^ M.blog := Nat.pos_of_ne_zero (by positivity)
    obtain ⟨W', e', hW, _⟩ := window_wf (highr := highr) hw h1 h2 h3 h4 h64 (by
      rcases hs with hs | hs
      · right; left
        intro hc
        rw [hc, Nat.shiftRight_eq_div_pow, Nat.div_self hB] at hs
        omega
      · exact .inr (.inr hs))
    rw [e] at e'
    obtain rfl := Except.ok.inj e'
    exact ⟨_, _, hW⟩

section
variable {M : Lay} {R wo : Nat}

theorem WF.pos (_h : WF M R wo) : 0 < 2 ^ M.blog := Nat.pos_of_ne_zero (by positivity)

theorem block_iff {B x n : Nat} (hB : 0 < B) : x / B = n ↔ n * B ≤ x ∧ x < n * B + B := by
  rw [Nat.div_eq_iff hB]
  omega

theorem WF.row_eq (h : WF M R wo) {i n : Nat} (h1 : n * 2 ^ M.blog ≤ M.roff + i) (h2 : M.roff + i < n * 2 ^ M.blog + 2 ^ M.blog) :
    M.rows i = (M.base + n, (((M.roff + i - n * 2 ^ M.blog) * M.rowstride + wo : Nat) : Int)) := by
  have hB := h.pos
  rw [h.rows, Nat.add_assoc, (divB hB).1, (divB hB).2, (block_iff hB).2 ⟨h1, h2⟩]
  have : (M.roff + i) % 2 ^ M.blog = M.roff + i - n * 2 ^ M.blog := by
    have := Nat.div_add_mod (M.roff + i) (2 ^ M.blog)
    rw [(block_iff hB).2 ⟨h1, h2⟩, Nat.mul_comm] at this
    omega
  rw [this]

theorem WF.size_ge (h : WF M R wo) {n i : Nat} (h1 : n * 2 ^ M.blog ≤ M.roff + i) (h2 : M.roff + i < n * 2 ^ M.blog + 2 ^ M.blog) (hi : i < M.nrows) :
    (M.roff + i - n * 2 ^ M.blog) * M.rowstride + M.rowstride ≤ M.size (M.base + n) := by
  rw [h.size, ← Nat.succ_mul]
  apply Nat.mul_le_mul_right
  have := h.inside
  rw [Nat.add_mul]
  omega

theorem WF.inBlock (h : WF M R wo) {i : Nat} (hi : i < M.nrows) : InBlock M (M.rows i) := by
  have hB := h.pos
  obtain ⟨h1, h2⟩ := (block_iff hB (x := M.roff + i) (n := (M.roff + i) / 2 ^ M.blog)).1 rfl
  have hs := h.size_ge h1 h2 hi
  have hw := h.width
  unfold InBlock
  rw [h.row_eq h1 h2]
  constructor
  · exact Int.natCast_nonneg _
  · show (((M.roff + i - (M.roff + i) / 2 ^ M.blog * 2 ^ M.blog) * M.rowstride + wo : Nat) : Int) + M.width ≤ M.size (M.base + (M.roff + i) / 2 ^ M.blog)
    have : (M.roff + i - (M.roff + i) / 2 ^ M.blog * 2 ^ M.blog) * M.rowstride + wo + M.width ≤ M.size (M.base + (M.roff + i) / 2 ^ M.blog) := by omega
    exact_mod_cast this

/-- Two rows do not overlap. -/
theorem WF.disjoint (h : WF M R wo) {i j : Nat} (hij : i < j) (hb : (M.rows i).1 = (M.rows j).1) : (M.rows i).2 + M.width ≤ (M.rows j).2 := by
  have hB := h.pos
  obtain ⟨h1, h2⟩ := (block_iff hB (x := M.roff + i) (n := (M.roff + i) / 2 ^ M.blog)).1 rfl
  obtain ⟨h3, h4⟩ := (block_iff hB (x := M.roff + j) (n := (M.roff + j) / 2 ^ M.blog)).1 rfl
  rw [h.row_eq h1 h2, h.row_eq h3 h4] at *
  have hb' : M.base + (M.roff + i) / 2 ^ M.blog = M.base + (M.roff + j) / 2 ^ M.blog := hb
  have e : (M.roff + j) / 2 ^ M.blog = (M.roff + i) / 2 ^ M.blog := by omega
  rw [e]
  rw [e] at h3
  have hw := h.width
  have := Nat.mul_le_mul_right M.rowstride (show M.roff + i - (M.roff + i) / 2 ^ M.blog * 2 ^ M.blog + 1 ≤ M.roff + j - (M.roff + i) / 2 ^ M.blog * 2 ^ M.blog by omega)
  rw [Nat.succ_mul] at this
  have : (M.roff + i - (M.roff + i) / 2 ^ M.blog * 2 ^ M.blog) * M.rowstride + wo + M.width ≤ (M.roff + j - (M.roff + i) / 2 ^ M.blog * 2 ^ M.blog) * M.rowstride + wo := by omega
  show (((M.roff + i - (M.roff + i) / 2 ^ M.blog * 2 ^ M.blog) * M.rowstride + wo : Nat) : Int) + M.width ≤ (((M.roff + j - (M.roff + i) / 2 ^ M.blog * 2 ^ M.blog) * M.rowstride + wo : Nat) : Int)
  exact_mod_cast this

theorem WF.row (h : WF M R wo) {i : Nat} (hi : i < M.nrows) (ho : M.offv + i * M.rowstride < 2 ^ 31) : mzd_row M i = .ok (M.rows i) := by
  have hB := h.pos
  have hof := h.offv
  obtain ⟨h1, h2⟩ := (block_iff hB (x := M.roff + i) (n := (M.roff + i) / 2 ^ M.blog)).1 rfl
  unfold mzd_row
  have hp : (0 : Int) ≤ i * M.rowstride := by positivity
  have hp2 : 0 ≤ M.offv := by rw [hof]; exact Int.natCast_nonneg _
  rw [i32_ok hp (by omega), ok_bind, i32_ok (by omega) ho, ok_bind]
  simp only []
  have key : (if M.multi = true then ((M.base + (M.roff + i) >>> M.blog, M.offv + i * M.rowstride - ((M.roff + i) >>> M.blog : Nat) * M.size M.base) : Addr) else (M.base, M.offv + i * M.rowstride)) = M.rows i := by
    rw [h.row_eq h1 h2, Nat.shiftRight_eq_div_pow]
    have hm := h.multi
    split
    · rename_i hc
      rw [hm, decide_eq_true_eq] at hc
      have hsz : M.size M.base = 2 ^ M.blog * M.rowstride := by
        have := h.inside
        rw [h.size, Nat.min_eq_left (by omega)]
      rw [hsz, hof]
      refine Prod.ext rfl ?_
      show _ = (((M.roff + i - (M.roff + i) / 2 ^ M.blog * 2 ^ M.blog) * M.rowstride + wo : Nat) : Int)
      push_cast [Nat.cast_sub h1]
      ring
    · rename_i hc
      rw [hm, decide_eq_true_eq] at hc
      have e : (M.roff + i) / 2 ^ M.blog = 0 := Nat.div_eq_of_lt (by omega)
      rw [e, hof]
      refine Prod.ext rfl ?_
      simp
      ring
  rw [if_pos key, key]; rfl

theorem WF.row_overflow (h : WF M R wo) {i : Nat} (ho : 2 ^ 31 ≤ M.offv + i * M.rowstride) : mzd_row M i = .error .overflow := by
  unfold mzd_row
  by_cases h1 : (i : Int) * M.rowstride < 2 ^ 31
  · rw [i32_ok (by positivity) h1, ok_bind]
    have : i32 (M.offv + i * M.rowstride) = .error .overflow := if_neg (by omega)
    rw [this]; rfl
  · have : i32 (i * M.rowstride) = .error .overflow := if_neg (by omega)
    rw [this]; rfl

theorem WF.first (h : WF M R wo) : mzd_first_row M = .ok (M.rows 0) := by
  have e : (M.base, M.offv) = M.rows 0 := by
    rw [h.row_eq (n := 0) (by omega) (by have := h.roff; omega), h.offv]
    simp
  unfold mzd_first_row
  rw [if_pos (.inr e), e]; rfl

theorem WF.next (h : WF M R wo) {n i : Nat} (hi : M.roff + i = n * 2 ^ M.blog) : mzd_first_row_next_block M n = M.rows i := by
  rw [h.row_eq (n := n) (by omega) (by have := h.pos; omega)]
  unfold mzd_first_row_next_block
  refine Prod.ext rfl ?_
  show M.offv - M.roff * M.rowstride = (((M.roff + i - n * 2 ^ M.blog) * M.rowstride + wo : Nat) : Int)
  rw [h.offv, hi, Nat.sub_self]
  push_cast; ring

theorem WF.rowsIn (h : WF M R wo) {n : Nat} (hn : 1 ≤ n) (hp : n * 2 ^ M.blog < M.roff + M.nrows) :
    mzd_rows_in_block M n = ((min (n * 2 ^ M.blog + 2 ^ M.blog) (M.roff + M.nrows) - n * 2 ^ M.blog : Nat) : Int) := by
  have hB := h.pos
  have hge : 2 ^ M.blog ≤ n * 2 ^ M.blog := Nat.le_mul_of_pos_left _ hn
  unfold mzd_rows_in_block mzd_row_to_block
  rw [if_pos (by rw [h.multi, decide_eq_true_eq]; omega), if_neg (by omega), Nat.shiftRight_eq_div_pow]
  have hcast : ((n : Int) * 2 ^ M.blog) = ((n * 2 ^ M.blog : Nat) : Int) := by push_cast; rfl
  have hcast2 : ((2 : Int) ^ M.blog) = ((2 ^ M.blog : Nat) : Int) := by push_cast; rfl
  split
  · rename_i hl
    have := (Nat.le_div_iff_mul_le hB).1 (show n + 1 ≤ _ from hl)
    rw [Nat.succ_mul] at this
    rw [hcast2]
    omega
  · rename_i hl
    have := Nat.lt_mul_of_div_lt (show (M.roff + (M.nrows - 1)) / 2 ^ M.blog < n + 1 by omega) hB
    rw [Nat.succ_mul] at this
    rw [hcast]
    omega

theorem WF.rowsIn0 (h : WF M R wo) : mzd_rows_in_block M 0 = ((min (2 ^ M.blog) (M.roff + M.nrows) - M.roff : Nat) : Int) := by
  have hro := h.roff
  have hcast2 : ((2 : Int) ^ M.blog) = ((2 ^ M.blog : Nat) : Int) := by push_cast; rfl
  unfold mzd_rows_in_block
  by_cases hc : 2 ^ M.blog < M.roff + M.nrows
  · rw [if_pos (by rw [h.multi]; simpa using hc), if_pos rfl, hcast2]
    omega
  · rw [if_neg (by rw [h.multi]; simpa using hc), if_neg (by simp)]
    omega

theorem WF.rowsIn_le (h : WF M R wo) {n : Nat} (hn : 1 ≤ n) (hp : M.roff + M.nrows ≤ n * 2 ^ M.blog) : mzd_rows_in_block M n ≤ 0 := by
  have hB := h.pos
  have hcast : ((n : Int) * 2 ^ M.blog) = ((n * 2 ^ M.blog : Nat) : Int) := by push_cast; rfl
  unfold mzd_rows_in_block mzd_row_to_block
  split
  · rename_i hm
    rw [if_neg (by omega), Nat.shiftRight_eq_div_pow]
    rw [h.multi, decide_eq_true_eq] at hm
    have hro := h.roff
    split
    · rename_i hl
      have := (Nat.le_div_iff_mul_le hB).1 hl.le
      omega
    · rw [hcast]; omega
  · rw [if_pos (by omega)]

theorem filter_range (N lo hi : Nat) : ((List.range N).filter fun i => decide (lo ≤ i) && decide (i < hi)).length = min N hi - lo := by
  induction N with
  | zero => simp
  | succ N ih =>
    rw [List.range_succ, List.filter_append, List.length_append, ih]
    by_cases h : lo ≤ N ∧ N < hi
    · simp [h.1, h.2]; omega
    · have : (decide (lo ≤ N) && decide (N < hi)) = false := by
        rw [← Bool.decide_and, decide_eq_false_iff_not]; exact h
      simp [this]; omega

theorem WF.rowsFrom (h : WF M R wo) (r n : Nat) : rowsFrom M r n = min M.nrows (n * 2 ^ M.blog + 2 ^ M.blog - M.roff) - max r (n * 2 ^ M.blog - M.roff) := by
  have hB := h.pos
  have hro := h.roff
  unfold WB.m4l.rowsFrom
  rw [← filter_range]
  congr 1
  apply List.filter_congr
  intro i _
  rw [← Bool.decide_and, ← Bool.decide_and, decide_eq_decide, h.rows, Nat.add_assoc, (divB hB).1]
  have := block_iff hB (x := M.roff + i) (n := n)
  constructor
  · rintro ⟨h1, h2⟩
    have := this.1 (by omega)
    omega
  · rintro ⟨h1, h2⟩
    have := this.2 (by omega)
    exact ⟨by omega, by rw [this]⟩

theorem WF.remaining (h : WF M R wo) {r : Nat} (hr : r < M.nrows) :
    mzd_remaining_rows_in_block M r = ((min (M.roff + M.nrows) ((M.roff + r) / 2 ^ M.blog * 2 ^ M.blog + 2 ^ M.blog) - (M.roff + r) : Nat) : Int) + if (M.roff + r) / 2 ^ M.blog = 0 then 0 else (M.roff : Int) := by
  have hB := h.pos
  have hro := h.roff
  unfold mzd_remaining_rows_in_block mzd_row_to_block
  simp only [Nat.shiftRight_eq_div_pow]
  obtain ⟨h1, h2⟩ := (block_iff hB (x := M.roff + r) (n := (M.roff + r) / 2 ^ M.blog)).1 rfl
  generalize (M.roff + r) / 2 ^ M.blog = n at *
  have hcast : ((n : Int) * 2 ^ M.blog) = ((n * 2 ^ M.blog : Nat) : Int) := by push_cast; rfl
  have hcast2 : ((2 : Int) ^ M.blog) = ((2 ^ M.blog : Nat) : Int) := by push_cast; rfl
  rw [hcast, hcast2]
  by_cases hm : M.multi = true
  · rw [if_pos hm]
    rw [h.multi, decide_eq_true_eq] at hm
    by_cases hn : n = 0
    · rw [if_pos hn, if_pos hn]
      subst hn
      simp only [Nat.zero_mul, Nat.zero_add] at h1 h2 ⊢
      omega
    · rw [if_neg hn, if_neg hn]
      split
      · rename_i hl
        have := (Nat.le_div_iff_mul_le hB).1 (show n + 1 ≤ _ from hl)
        rw [Nat.succ_mul] at this
        omega
      · rename_i hl
        have := Nat.lt_mul_of_div_lt (show (M.roff + (M.nrows - 1)) / 2 ^ M.blog < n + 1 by omega) hB
        rw [Nat.succ_mul] at this
        omega
  · rw [if_neg hm]
    rw [h.multi, decide_eq_true_eq] at hm
    have hn : n = 0 := by
      by_contra hc
      have : 2 ^ M.blog ≤ n * 2 ^ M.blog := Nat.le_mul_of_pos_left _ (by omega)
      omega
    rw [if_neg (not_not.2 hn), if_pos hn]
    subst hn
    simp only [Nat.zero_mul, Nat.zero_add] at h1 h2 ⊢
    omega

theorem visit_rows (h : WF M R wo) {aw bw n : Nat} (ha : aw < M.width) (hb : bw < M.width) : ∀ (k s : Nat), n * 2 ^ M.blog ≤ M.roff + s → M.roff + s + k ≤ n * 2 ^ M.blog + 2 ^ M.blog →
    s + k ≤ M.nrows → visit M aw bw (M.rows s) k = .ok ((List.range' s k).map M.rows) := by
  intro k
  induction k with
  | zero => intro s _ _ _; rfl
  | succ k ih =>
    intro s h1 h2 h3
    obtain ⟨hi1, hi2⟩ := h.inBlock (i := s) (by omega)
    unfold visit
    rw [if_pos ⟨hi1, by omega, by omega⟩]
    cases k with
    | zero => rfl
    | succ k =>
      have e : ((M.rows s).1, (M.rows s).2 + (M.rowstride : Int)) = M.rows (s + 1) := by
        rw [h.row_eq (n := n) h1 (by omega), h.row_eq (n := n) (i := s + 1) (by omega) (by omega)]
        refine Prod.ext rfl ?_
        show (((M.roff + s - n * 2 ^ M.blog) * M.rowstride + wo : Nat) : Int) + M.rowstride = (((M.roff + (s + 1) - n * 2 ^ M.blog) * M.rowstride + wo : Nat) : Int)
        rw [show M.roff + (s + 1) - n * 2 ^ M.blog = M.roff + s - n * 2 ^ M.blog + 1 by omega]
        push_cast; ring
      rw [e, ih (s + 1) (by omega) (by omega) (by omega)]
      rfl

theorem visit_oob {aw bw b : Nat} : ∀ (k : Nat) (x : Int), (∃ i < k, (M.size b : Int) ≤ x + i * M.rowstride + aw) → visit M aw bw (b, x) k = .error .oob := by
  intro k
  induction k with
  | zero => rintro x ⟨i, hi, _⟩; omega
  | succ k ih =>
    rintro x ⟨i, hi, hx⟩
    unfold visit
    split
    · rename_i hc
      cases i with
      | zero =>
        have h2 : x + aw < M.size b := hc.2.1
        simp at hx; omega
      | succ i =>
        have : visit M aw bw (b, x + M.rowstride) k = .error .oob := ih _ ⟨i, by omega, by
          push_cast at hx
          have e : x + ((i : Int) + 1) * M.rowstride = x + M.rowstride + i * M.rowstride := by ring
          rw [e] at hx
          exact hx⟩
        show (visit M aw bw (b, x + M.rowstride) k >>= fun l => pure ((b, x) :: l)) = _
        rw [this]; rfl
    · rfl

theorem swapLoop_rows (h : WF M R wo) {aw bw : Nat} (ha : aw < M.width) (hb : bw < M.width) {stop : Nat} (hst : stop ≤ M.nrows) : ∀ (fuel s n : Nat), stop < fuel + s → s < stop →
    n * 2 ^ M.blog ≤ M.roff + s → M.roff + s < n * 2 ^ M.blog + 2 ^ M.blog →
    swapLoop M aw bw fuel n (M.rows s) ((min (n * 2 ^ M.blog + 2 ^ M.blog) (M.roff + stop) - (M.roff + s) : Nat) : Int) ((stop : Int) - s) = .ok ((List.range' s (stop - s)).map M.rows) := by
  have hB := h.pos
  intro fuel
  induction fuel with
  | zero => intro s n hf hs _ _; omega
  | succ fuel ih =>
    intro s n hf hs h1 h2
    unfold swapLoop
    rw [Int.toNat_natCast, visit_rows h ha hb (n := n) _ s h1 (by omega) (by omega), ok_bind]
    simp only []
    by_cases hc : M.roff + stop ≤ n * 2 ^ M.blog + 2 ^ M.blog
    · rw [Nat.min_eq_right hc, if_pos (by omega), show M.roff + stop - (M.roff + s) = stop - s by omega]
      rfl
    · have e1 : (n + 1) * 2 ^ M.blog = n * 2 ^ M.blog + 2 ^ M.blog := Nat.succ_mul _ _
      rw [Nat.min_eq_left (by omega), h.rowsIn (n := n + 1) (by omega) (by omega)]
      generalize hk : n * 2 ^ M.blog + 2 ^ M.blog - (M.roff + s) = k
      have e2 : M.roff + (s + k) = (n + 1) * 2 ^ M.blog := by omega
      have e3 : min (((min ((n + 1) * 2 ^ M.blog + 2 ^ M.blog) (M.roff + M.nrows) - (n + 1) * 2 ^ M.blog : Nat) : Int)) ((stop : Int) - s - (k : Int)) =
          ((min ((n + 1) * 2 ^ M.blog + 2 ^ M.blog) (M.roff + stop) - (M.roff + (s + k)) : Nat) : Int) := by omega
      have e4 : (stop : Int) - s - (k : Int) = (stop : Int) - ((s + k : Nat) : Int) := by push_cast; ring
      rw [e3, if_neg (by omega), h.next e2, e4, ih (s + k) (n + 1) (by omega) (by omega) (by omega) (by omega), ok_bind, ← List.map_append,
        show stop - s = k + (stop - (s + k)) by omega, ← List.range'_append_1]
      rfl

theorem swapAll_rows (h : WF M R wo) {aw bw : Nat} (ha : aw < M.width) (hb : bw < M.width) : ∀ (fuel s n : Nat), M.nrows < fuel + s → s < M.nrows →
    n * 2 ^ M.blog ≤ M.roff + s → M.roff + s < n * 2 ^ M.blog + 2 ^ M.blog →
    swapAll M aw bw fuel n (M.rows s) ((min (n * 2 ^ M.blog + 2 ^ M.blog) (M.roff + M.nrows) - (M.roff + s) : Nat) : Int) = .ok ((List.range' s (M.nrows - s)).map M.rows) := by
  have hB := h.pos
  intro fuel
  induction fuel with
  | zero => intro s n hf hs _ _; omega
  | succ fuel ih =>
    intro s n hf hs h1 h2
    unfold swapAll
    rw [Int.toNat_natCast, visit_rows h ha hb (n := n) _ s h1 (by omega) (by omega), ok_bind]
    simp only []
    have e1 : (n + 1) * 2 ^ M.blog = n * 2 ^ M.blog + 2 ^ M.blog := Nat.succ_mul _ _
    by_cases hc : M.roff + M.nrows ≤ n * 2 ^ M.blog + 2 ^ M.blog
    · rw [Nat.min_eq_right hc, if_pos (h.rowsIn_le (by omega) (by omega)), show M.roff + M.nrows - (M.roff + s) = M.nrows - s by omega]
      rfl
    · rw [Nat.min_eq_left (by omega), h.rowsIn (n := n + 1) (by omega) (by omega)]
      generalize hk : n * 2 ^ M.blog + 2 ^ M.blog - (M.roff + s) = k
      have e2 : M.roff + (s + k) = (n + 1) * 2 ^ M.blog := by omega
      rw [if_neg (by omega), h.next e2, ← e2, ]
      have := ih (s + k) (n + 1) (by omega) (by omega) (by omega) (by omega)
      rw [← e2] at this
      rw [this, ok_bind, ← List.map_append, show M.nrows - s = k + (M.nrows - (s + k)) by omega, ← List.range'_append_1]
      rfl

end

end WB.m4l
