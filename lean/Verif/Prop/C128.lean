import Verif.Proof.M4riCompress
import Verif.Proof.M4riPack

/-!
# C128 — the compression of `L` in the block recursive PLE factorisation of M4RI (`/repo/test/github1_M4RI/src/m4ri/mzp.c`, `_mzd_compress_l`)
-/
namespace WB.m4w

open WB.cmp (Mem Mem2)

variable {m n r1 n1 r2 : Nat} {M : Mzd} {A : Matrix (Fin m) (Fin n) (ZMod 2)}

/-- How many columns of the second factor row `i` has: one more in every row with a pivot, all `r2` below. -/
def lowLen (r1 r2 i : Nat) : Nat := min r2 (i - r1 + 1)

/-- What the drawing in the sources shows: the factor `L` of the right-hand part, which begins in column `n1`, stands in the columns from `r1` on, next to the factor of the left-hand part.
Where it was and between the two there are zeros.  Everything else is left. -/
structure Compressed (r1 n1 r2 : Nat) (A B : Matrix (Fin m) (Fin n) (ZMod 2)) : Prop where
  keep : ∀ (i : Fin m) (b : Fin n), (i : Nat) < r1 ∨ (b : Nat) < r1 → B i b = A i b
  moved : ∀ (i : Fin m) (b c : Fin n) (t : Nat), r1 ≤ (i : Nat) → t < lowLen r1 r2 i → (b : Nat) = r1 + t → (c : Nat) = n1 + t → B i b = A i c
  zero : ∀ (i : Fin m) (b : Fin n), r1 ≤ (i : Nat) → r1 + lowLen r1 r2 i ≤ (b : Nat) → (b : Nat) < n1 + lowLen r1 r2 i → B i b = 0
  rest : ∀ (i : Fin m) (b : Fin n), r1 ≤ (i : Nat) → n1 + lowLen r1 r2 i ≤ (b : Nat) → B i b = A i b

/-- What is given: the left-hand part has rank `r1` and is factored, so that the rows below do not go beyond the `r1` columns of its `L`; the right-hand part below row `r1` has rank `r2` and is
factored as well. -/
structure BlockPle (r1 n1 r2 : Nat) (A : Matrix (Fin m) (Fin n) (ZMod 2)) : Prop where
  le : r1 ≤ n1
  cut : n1 % 64 = 0
  lt : n1 < n
  cols : n1 + r2 ≤ n
  rows : r1 + r2 ≤ m
  left : ∀ (i : Fin m) (b : Fin n), r1 ≤ (i : Nat) → r1 ≤ (b : Nat) → (b : Nat) < n1 → A i b = 0
  right : ∀ (i : Fin m) (b : Fin n), r1 + r2 ≤ (i : Nat) → n1 + r2 ≤ (b : Nat) → A i b = 0

/-- C128, full statement: `_mzd_compress_l` moves `L` and changes nothing else, neither in the matrix nor in the columns behind it that belong to the matrix it is a window of. -/
def C128_statement : Prop := ∀ {m n r1 n1 r2 : Nat} {M : Mzd} {A : Matrix (Fin m) (Fin n) (ZMod 2)}, Rep M A → BlockPle r1 n1 r2 A →
  ∃ N B, _mzd_compress_l M r1 n1 r2 = .ok N ∧ Rep N B ∧ Compressed r1 n1 r2 A B ∧ ∀ a b, n ≤ b → N.bit a b = M.bit a b

theorem bitF_zero {x : Bool} (h : bitF x = 0) : x = false := by
  cases x
  · rfl
  · exact absurd h (by decide)

/-- All bits afterwards. -/
theorem compress_bits (hM : Rep M A) (h : BlockPle r1 n1 r2 A) (hlt : r1 < n1) :
    ∃ N, _mzd_compress_l M r1 n1 r2 = .ok N ∧ Sh M N ∧ ∀ a b, N.bit a b =
      if r1 ≤ a ∧ a < r1 + r2 ∧ r1 ≤ b ∧ b < n1 + min r2 (a - r1 + 1) then (if b < r1 + min r2 (a - r1 + 1) then M.bit a (b - r1 + n1) else false)
      else if r1 + r2 ≤ a ∧ a < m ∧ r1 ≤ b ∧ b < 64 * ((n1 + r2 + 63) / 64) then (if b < r1 + r2 then M.bit a (b - r1 + n1) else false) else M.bit a b := by
  have hl := h.lt
  obtain ⟨N, e, sh, hN⟩ := compress_spec hM.wf hlt h.cut (by rw [hM.ncols]; exact h.cols) (by rw [hM.ncols]; exact hl) (by rw [hM.nrows]; exact h.rows)
    (fun i b h1 h2 h3 h4 => bitF_zero ((hM.bit ⟨i, by rw [hM.nrows] at h2; exact h2⟩ ⟨b, by omega⟩).trans (h.left _ _ h1 h3 h4)))
  rw [hM.nrows] at hN
  exact ⟨N, e, sh, hN⟩

/-- C128, what holds: the matrix is compressed, in every case, and behind it nothing changes in the rows with pivots and from the first word on that `n1 + r2` does not reach into. -/
theorem C128_compress_partial (hM : Rep M A) (h : BlockPle r1 n1 r2 A) :
    ∃ N B, _mzd_compress_l M r1 n1 r2 = .ok N ∧ Rep N B ∧ Compressed r1 n1 r2 A B ∧
      ∀ a b, n ≤ b → a < r1 + r2 ∨ m ≤ a ∨ 64 * ((n1 + r2 + 63) / 64) ≤ b → N.bit a b = M.bit a b := by
  have h1 := h.le
  have h2 := h.cols
  have h3 := h.rows
  have h4 := h.lt
  have hb := hM.bit
  rcases Nat.lt_or_ge r1 n1 with hlt | hge
  · obtain ⟨N, e, sh, hN⟩ := compress_bits hM h hlt
    refine ⟨N, fun i b => bitF (N.bit i b), e, ⟨sh.wf hM.wf, sh.nrows.trans hM.nrows, sh.ncols.trans hM.ncols, fun _ _ => rfl⟩, ⟨?_, ?_, ?_, ?_⟩, ?_⟩
    · intro i b g
      rw [hN, if_neg (by omega), if_neg (by omega)]
      exact hb i b
    · intro i b c t g1 g2 g3 g4
      unfold lowLen at g2
      have e : N.bit i b = M.bit i c := by
        rw [hN, show (c : Nat) = b - r1 + n1 by omega]
        split_ifs <;> first | rfl | omega
      show bitF (N.bit i b) = _
      rw [e]
      exact hb i c
    · intro i b g1 g2 g3
      unfold lowLen at g2 g3
      have e : N.bit i b = false := by
        rw [hN]
        split_ifs <;> first | rfl | omega
      show bitF (N.bit i b) = _
      rw [e]; rfl
    · intro i b g1 g2
      unfold lowLen at g2
      show bitF (N.bit i b) = _
      by_cases g : (i : Nat) < r1 + r2
      · rw [hN, if_neg (by omega), if_neg (by omega)]
        exact hb i b
      · rw [h.right i b (by omega) (by omega), hN, if_neg (by omega)]
        by_cases g' : r1 + r2 ≤ (i : Nat) ∧ (i : Nat) < m ∧ r1 ≤ (b : Nat) ∧ (b : Nat) < 64 * ((n1 + r2 + 63) / 64)
        · rw [if_pos g', if_neg (by omega)]; rfl
        · rw [if_neg g', hb i b]
          exact h.right i b (by omega) (by omega)
    · intro a b g1 g2
      rw [hN, if_neg (by omega), if_neg (by omega)]
  · have e0 : r1 = n1 := by omega
    refine ⟨M, A, ?_, hM, ⟨fun _ _ _ => rfl, ?_, ?_, fun _ _ _ _ => rfl⟩, fun _ _ _ _ => rfl⟩
    · unfold _mzd_compress_l
      rw [if_pos e0]; rfl
    · intro i b c t _ _ g3 g4
      rw [show b = c from Fin.ext (by omega)]
    · intro i b _ g2 g3
      omega

/-- C128: a matrix whose unused bits are zero is left so, hence there the full statement holds. -/
theorem C128_clean (hM : Rep M A) (cM : M.Clean) (h : BlockPle r1 n1 r2 A) :
    ∃ N B, _mzd_compress_l M r1 n1 r2 = .ok N ∧ Rep N B ∧ Compressed r1 n1 r2 A B ∧ N.Clean := by
  have h2 := h.cols
  obtain ⟨N, B, e, hN, hc, out⟩ := C128_compress_partial hM h
  refine ⟨N, B, e, hN, hc, fun i hi j g1 g2 => ?_⟩
  rw [hN.nrows] at hi
  rw [hN.ncols] at g1
  have hw : M.width = N.width := by unfold Mzd.width; rw [hN.ncols, hM.ncols]
  have hz := cM i (by rw [hM.nrows]; exact hi) j (by rw [hM.ncols]; exact g1) (by rw [hw]; exact g2)
  by_cases g : i < r1 + r2 ∨ 64 * ((n1 + r2 + 63) / 64) ≤ j
  · rw [out i j g1 (by omega), hz]
  · rcases Nat.lt_or_ge r1 n1 with hlt | hge
    · obtain ⟨N', e', _, hN'⟩ := compress_bits hM h hlt
      obtain rfl : N' = N := by rw [e] at e'; exact (Except.ok.inj e').symm
      rw [hN', if_neg (by omega), if_pos (by omega), if_neg (by omega)]
    · have e0 : r1 = n1 := by have := h.le; omega
      unfold _mzd_compress_l at e
      rw [if_pos e0] at e
      obtain rfl : M = N := Except.ok.inj e
      exact hz

/-- C128, what goes wrong: in the rows without pivots the columns behind the matrix are set to zero, up to the end of the word of column `n1 + r2 - 1`. -/
theorem C128_behind_violated (hM : Rep M A) (h : BlockPle r1 n1 r2 A) (hlt : r1 < n1) :
    ∃ N, _mzd_compress_l M r1 n1 r2 = .ok N ∧ ∀ a b, r1 + r2 ≤ a → a < m → n ≤ b → b < 64 * ((n1 + r2 + 63) / 64) → N.bit a b = false := by
  have h2 := h.cols
  obtain ⟨N, e, _, hN⟩ := compress_bits hM h hlt
  exact ⟨N, e, fun a b g1 g2 g3 g4 => by rw [hN, if_neg (by omega), if_pos (by omega), if_neg (by omega)]⟩

theorem block_of_bits (h1 : r1 ≤ n1) (h2 : n1 % 64 = 0) (h3 : n1 < n) (h4 : n1 + r2 ≤ n) (h5 : r1 + r2 ≤ m) (hl : ∀ i < m, ∀ b < n, r1 ≤ i → r1 ≤ b → b < n1 → M.bit i b = false)
    (hr : ∀ i < m, ∀ b < n, r1 + r2 ≤ i → n1 + r2 ≤ b → M.bit i b = false) : BlockPle r1 n1 r2 (blk M 0 0 m n) where
  le := h1
  cut := h2
  lt := h3
  cols := h4
  rows := h5
  left i b g1 g2 g3 := by
    show bitF (M.bit (0 + i) (0 + b)) = 0
    rw [Nat.zero_add, Nat.zero_add, hl i i.2 b b.2 g1 g2 g3]; rfl
  right i b g1 g2 := by
    show bitF (M.bit (0 + i) (0 + b)) = 0
    rw [Nat.zero_add, Nat.zero_add, hr i i.2 b b.2 g1 g2]; rfl

/-- Two rows of 128 columns; the first 65 columns are the matrix, with one pivot in the last of them. -/
def exParent : Mzd := ⟨2, 128, 0, ⟨2, 2, fun i j => if j = 1 then (if i = 0 then 1#64 else 64#64) else 0#64⟩⟩

theorem exParent_rep : Rep (mzd_window exParent 0 0 2 65) (blk (mzd_window exParent 0 0 2 65) 0 0 2 65) := rep_blk ⟨by decide, by decide⟩

theorem exParent_block : BlockPle 0 64 1 (blk (mzd_window exParent 0 0 2 65) 0 0 2 65) :=
  block_of_bits (by decide) (by decide) (by decide) (by decide) (by decide) (by decide) (by decide)

/-- C128: the full statement is false. -/
theorem C128_violated : ¬ C128_statement := by
  intro h
  obtain ⟨N, B, e, _, _, out⟩ := h exParent_rep exParent_block
  obtain ⟨N', e', z⟩ := C128_behind_violated exParent_rep exParent_block (by decide)
  rw [e] at e'
  obtain rfl : N = N' := Except.ok.inj e'
  have := z 1 70 (by decide) (by decide) (by decide) (by decide)
  rw [out 1 70 (by decide)] at this
  exact absurd this (by decide)

/-- Column 70 of the matrix that the window belongs to is lost. -/
example : exParent.bit 1 70 = true ∧ (onWindow exParent 0 0 2 65 fun W => _mzd_compress_l W 0 64 1).map (fun N => N.bit 1 70) = .ok false := by
  refine ⟨by decide, ?_⟩
  with_unfolding_all rfl

/-- A left-hand part of rank 1 and a right-hand part of rank 2; the rows of `L` are 1, 1 and 1, 1, 1. -/
def exBlock : Mzd := ⟨4, 70, 0, ⟨4, 2, fun i j => if j = 0 then 1#64 else if i = 0 then 37#64 else if i = 1 then 5#64 else if i = 2 then 7#64 else 3#64⟩⟩

/-- `L` is moved to the left; the rows with pivots keep what is behind it. -/
example : (_mzd_compress_l exBlock 1 64 2).map (fun N => (List.range 4).map fun i => (N.word i 0, N.word i 1)) = .ok [(1, 37), (3, 4), (7, 4), (7, 0)] := by
  with_unfolding_all rfl

/-- The theorems apply to it. -/
example : ∃ N B, _mzd_compress_l exBlock 1 64 2 = .ok N ∧ Rep N B ∧ Compressed 1 64 2 (blk exBlock 0 0 4 70) B ∧ N.Clean :=
  C128_clean (rep_blk ⟨by decide, by decide⟩)
    (fun i hi j g1 g2 => (by decide : ∀ i < 4, ∀ j < 128, 70 ≤ j → exBlock.bit i j = false) i hi j g2 g1)
    (block_of_bits (by decide) (by decide) (by decide) (by decide) (by decide) (by decide) (by decide))

end WB.m4w
