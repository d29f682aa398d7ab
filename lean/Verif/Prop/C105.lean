import Verif.Proof.M4riMove
import Verif.SpecM4ri

/-!
# C105 — the functions of M4RI that move bits (`/repo/test/github1_M4RI/src/m4ri/{mzd,io}.c`)
-/
namespace WB.m4w

variable {r c : Nat}

/-- C105: a new matrix is the zero matrix, and its unused bits are zero. -/
theorem C105_init (r c : Nat) : Rep (mzd_init r c) (0 : Matrix (Fin r) (Fin c) (ZMod 2)) ∧ (mzd_init r c).Clean :=
  ⟨⟨init_wf r c, rfl, rfl, fun i j => by rw [init_bit]; rfl⟩, fun i _ j _ _ => init_bit r c i j⟩

/-- C105: `mzd_read_bit` reads the entry. -/
theorem C105_read_bit {M : Mzd} {A : Matrix (Fin r) (Fin c) (ZMod 2)} (hM : Rep M A) (i : Fin r) (j : Fin c) :
    ∃ b, mzd_read_bit M i j = .ok b ∧ bitF b = A i j :=
  ⟨_, read_bit hM.wf (by rw [hM.nrows]; exact i.2) (by rw [hM.ncols]; exact j.2), hM.bit i j⟩

/-- C105: `mzd_write_bit` replaces one entry and nothing else, not even an unused bit. -/
theorem C105_write_bit {M : Mzd} {A : Matrix (Fin r) (Fin c) (ZMod 2)} (hM : Rep M A) (i : Fin r) (j : Fin c) (b : Bool) :
    ∃ N, mzd_write_bit M i j b = .ok N ∧ Rep N (A.updateRow i (Function.update (A i) j (bitF b))) ∧ ∀ a k, c ≤ k → N.bit a k = M.bit a k := by
  obtain ⟨N, e, sh, hN⟩ := write_bit hM.wf (i := i) (j := j) (by rw [hM.nrows]; exact i.2) (by rw [hM.ncols]; exact j.2) b
  refine ⟨N, e, ⟨sh.wf hM.wf, sh.nrows.trans hM.nrows, sh.ncols.trans hM.ncols, fun a k => ?_⟩, fun a k hk => ?_⟩
  · rw [hN]
    by_cases ha : a = i
    · subst ha
      rw [Matrix.updateRow_self]
      by_cases hk : k = j
      · subst hk; rw [if_pos ⟨rfl, rfl⟩, Function.update_self]
      · rw [if_neg (fun h => hk (Fin.ext h.2)), Function.update_of_ne hk]; exact hM.bit a k
    · rw [if_neg (fun h => ha (Fin.ext h.1)), Matrix.updateRow_ne ha]; exact hM.bit a k
  · rw [hN, if_neg (by have := j.2; omega)]

/-- C105: `mzd_add` returns the sum, with zero unused bits, whatever the unused bits of the summands. -/
theorem C105_add {MA MB : Mzd} {A B : Matrix (Fin r) (Fin c) (ZMod 2)} (hA : Rep MA A) (hB : Rep MB B) :
    ∃ N, mzd_add MA MB = .ok N ∧ Rep N (A + B) ∧ N.Clean := by
  show Ok (mzd_add MA MB) _
  unfold mzd_add
  rw [if_neg (by rw [hA.nrows, hB.nrows, hA.ncols, hB.ncols]; simp)]
  have w := init_wf MA.nrows MA.ncols
  refine (add_spec w hA.wf hB.wf rfl (hB.nrows.trans hA.nrows.symm) rfl (hB.ncols.trans hA.ncols.symm)).mono ?_
  intro N ⟨sh, hN⟩
  refine ⟨⟨sh.wf w, sh.nrows.trans hA.nrows, sh.ncols.trans hA.ncols, fun i j => ?_⟩, fun i hi j hj _ => ?_⟩
  · rw [hN, if_pos ⟨by show _ < MA.nrows; rw [hA.nrows]; exact i.2, by show _ < MA.ncols; rw [hA.ncols]; exact j.2⟩, bitF_xor, hA.bit, hB.bit]; rfl
  · rw [sh.ncols] at hj
    rw [hN, if_neg (by omega), init_bit]

/-- C105: matrices of different sizes are not added. -/
theorem C105_add_sizes {A B : Mzd} (h : A.nrows ≠ B.nrows ∨ A.ncols ≠ B.ncols) : mzd_add A B = .error .abort := if_pos h

/-- C105: `mzd_concat` puts the second matrix to the right of the first, whose unused bits are zero. -/
theorem C105_concat {c' : Nat} {MA MB : Mzd} {A : Matrix (Fin r) (Fin c) (ZMod 2)} {B : Matrix (Fin r) (Fin c') (ZMod 2)} (hA : Rep MA A) (cA : MA.Clean) (hB : Rep MB B) :
    ∃ N, mzd_concat MA MB = .ok N ∧ Rep N (m4ri.concatMat A B) ∧ N.Clean := by
  obtain ⟨N, e, sh, hN⟩ := concat_spec hA.wf hB.wf cA (hA.nrows.trans hB.nrows.symm)
  have w := init_wf MA.nrows (MA.ncols + MB.ncols)
  rw [hA.nrows, hA.ncols, hB.ncols] at hN
  refine ⟨N, e, ⟨sh.wf w, sh.nrows.trans hA.nrows, ?_, fun i j => ?_⟩, fun i hi j hj _ => ?_⟩
  · rw [sh.ncols, ← hA.ncols, ← hB.ncols]; rfl
  · rw [hN, decide_eq_true ⟨i.2, j.2⟩, Bool.true_and]
    refine Fin.addCases (fun j => ?_) (fun j => ?_) j
    · show _ = Fin.addCases (motive := fun _ => ZMod 2) _ _ _
      rw [Fin.addCases_left, Fin.val_castAdd, if_pos j.2]; exact hA.bit i j
    · show _ = Fin.addCases (motive := fun _ => ZMod 2) _ _ _
      rw [Fin.addCases_right, Fin.val_natAdd, if_neg (by omega), Nat.add_sub_cancel_left]; exact hB.bit i j
  · have : N.ncols = c + c' := by rw [sh.ncols, ← hA.ncols, ← hB.ncols]; rfl
    rw [hN, decide_eq_false (by omega), Bool.false_and]

theorem C105_concat_sizes {A B : Mzd} (h : A.nrows ≠ B.nrows) : mzd_concat A B = .error .abort := if_pos h

/-- C105: `mzd_stack` puts the first matrix on top of the second. -/
theorem C105_stack {r' : Nat} {MA MB : Mzd} {A : Matrix (Fin r) (Fin c) (ZMod 2)} {B : Matrix (Fin r') (Fin c) (ZMod 2)} (hA : Rep MA A) (hB : Rep MB B) :
    ∃ N, mzd_stack MA MB = .ok N ∧ Rep N (m4ri.stackMat A B) ∧ (MA.Clean → MB.Clean → N.Clean) := by
  obtain ⟨N, e, sh, hN⟩ := stack_spec hA.wf hB.wf (hA.ncols.trans hB.ncols.symm)
  have w := init_wf (MA.nrows + MB.nrows) MA.ncols
  have hn : N.nrows = r + r' := by rw [sh.nrows, ← hA.nrows, ← hB.nrows]; rfl
  have hw : N.width = MA.width := sh.width
  have hw' : MB.width = MA.width := by unfold Mzd.width; rw [hB.ncols, hA.ncols]
  rw [hA.nrows, hB.nrows] at hN
  refine ⟨N, e, ⟨sh.wf w, hn, sh.ncols.trans hA.ncols, fun i j => ?_⟩, fun cA cB i hi j hj hj' => ?_⟩
  · rw [hN, decide_eq_true ⟨i.2, lt_width (by rw [hA.ncols]; exact j.2)⟩, Bool.true_and]
    refine Fin.addCases (fun i => ?_) (fun i => ?_) i
    · show _ = Fin.addCases (motive := fun _ => ZMod 2) _ _ _
      rw [Fin.addCases_left, Fin.val_castAdd, if_pos i.2]; exact hA.bit i j
    · show _ = Fin.addCases (motive := fun _ => ZMod 2) _ _ _
      rw [Fin.addCases_right, Fin.val_natAdd, if_neg (by omega), Nat.add_sub_cancel_left]; exact hB.bit i j
  · have hc : N.ncols = c := sh.ncols.trans hA.ncols
    rw [hc] at hj
    rw [hw] at hj'
    rw [hn] at hi
    rw [hN]
    split
    · rw [cA i (by rw [hA.nrows]; assumption) j (by rw [hA.ncols]; exact hj) hj', Bool.and_false]
    · rw [cB (i - r) (by rw [hB.nrows]; omega) j (by rw [hB.ncols]; exact hj) (by rw [hw']; exact hj'), Bool.and_false]

theorem C105_stack_sizes {A B : Mzd} (h : A.ncols ≠ B.ncols) : mzd_stack A B = .error .abort := if_pos h

/-- C105: `mzd_copy(NULL, P)` returns the same matrix, with zero unused bits. -/
theorem C105_copy {M : Mzd} {A : Matrix (Fin r) (Fin c) (ZMod 2)} (hc : 0 < c) (hM : Rep M A) : ∃ N, mzd_copy_new M = .ok N ∧ Rep N A ∧ N.Clean := by
  have w := init_wf M.nrows M.ncols
  obtain ⟨N, e, sh, hN⟩ := copy w hM.wf (by rw [hM.ncols]; exact hc) (Nat.le_refl _) (Nat.le_refl _)
  refine ⟨N, e, ⟨sh.wf w, sh.nrows.trans hM.nrows, sh.ncols.trans hM.ncols, fun i j => ?_⟩, fun i hi j hj _ => ?_⟩
  · rw [hN, if_pos ⟨by rw [hM.nrows]; exact i.2, by rw [hM.ncols]; exact j.2⟩]; exact hM.bit i j
  · have : N.ncols = M.ncols := sh.ncols
    rw [hN, if_neg (by omega), init_bit]

/-- C105: `mzd_from_str` sets the entries for which the text has the character `1`, row by row; a text that is too short is read past its end. -/
theorem C105_from_str {m n : Nat} {str : List (BitVec 8)} (hl : m * n ≤ str.length) :
    ∃ N, mzd_from_str m n str = .ok N ∧ Rep N (Matrix.of fun (i : Fin m) (j : Fin n) => if str[(i : Nat) * n + j]? = some 49#8 then 1 else 0) ∧ N.Clean := by
  obtain ⟨N, e, sh, hN⟩ := from_str_spec m n str hl
  refine ⟨N, e, ⟨sh.wf (init_wf m n), sh.nrows, sh.ncols, fun i j => ?_⟩, fun i hi j hj _ => ?_⟩
  · rw [hN, decide_eq_true ⟨i.2, j.2⟩, Bool.true_and]
    show _ = if _ then _ else _
    by_cases h : str[(i : Nat) * n + j]? = some 49#8
    · rw [if_pos h, h]; rfl
    · rw [if_neg h, show (str[(i : Nat) * n + j]? == some 49#8) = false from beq_eq_false_iff_ne.2 h]; rfl
  · have : N.ncols = n := sh.ncols
    rw [hN, decide_eq_false (by omega), Bool.false_and]

/-- C105: `mzd_randomize` uses one random word for each word of the matrix; entry `(i, j)` is bit `j % 64` of random word number `i * width + j / 64`.
The unused bits are left as they are. -/
theorem C105_randomize {M : Mzd} {A : Matrix (Fin r) (Fin c) (ZMod 2)} (hc : 0 < c) (hM : Rep M A) (rnd : Nat → Word) :
    ∃ N, mzd_randomize rnd M = .ok N ∧ Rep N (Matrix.of fun (i : Fin r) (j : Fin c) => bitF ((rnd (i * ((c + 63) / 64) + j / 64)).getLsbD (j % 64))) ∧
      ∀ a k, c ≤ k → N.bit a k = M.bit a k := by
  obtain ⟨N, e, sh, hN⟩ := randomize_spec hM.wf (by rw [hM.ncols]; exact hc) rnd
  have hw : M.width = (c + 63) / 64 := by unfold Mzd.width; rw [hM.ncols]
  rw [hw, hM.ncols, hM.nrows] at hN
  refine ⟨N, e, ⟨sh.wf hM.wf, sh.nrows.trans hM.nrows, sh.ncols.trans hM.ncols, fun i j => ?_⟩, fun a k hk => ?_⟩
  · rw [hN, if_pos ⟨i.2, j.2⟩]; rfl
  · rw [hN, if_neg (by omega)]

/-! ## Comparison -/

theorem precedes_asymm {A B : Matrix (Fin r) (Fin c) (ZMod 2)} (h : Precedes A B) : ¬ Precedes B A := by
  rintro ⟨i', j', g1, g2, g3, g4⟩
  obtain ⟨i, j, h1, h2, h3, h4⟩ := h
  rcases lt_trichotomy i i' with hlt | rfl | hlt
  · rw [g1 i hlt j, h3] at h4; exact absurd h4 (by decide)
  · rcases lt_trichotomy j j' with hlt | rfl | hlt
    · rw [h2 j' hlt, g3] at g4; exact absurd g4 (by decide)
    · rw [h3] at g4; exact absurd g4 (by decide)
    · rw [g2 j hlt, h3] at h4; exact absurd h4 (by decide)
  · rw [h1 i' hlt j', g3] at g4; exact absurd g4 (by decide)

theorem precedes_ne {A B : Matrix (Fin r) (Fin c) (ZMod 2)} (h : Precedes A B) : A ≠ B := by
  rintro rfl
  exact precedes_asymm h h

theorem precedes_of {MA MB : Mzd} {A B : Matrix (Fin r) (Fin c) (ZMod 2)} (hA : Rep MA A) (hB : Rep MB B) (h : MzdLt MA MB) : Precedes A B := by
  obtain ⟨i, hi, h1, j, hj, h2, h3, h4⟩ := h
  obtain rfl := hA.nrows
  obtain rfl := hA.ncols
  refine ⟨⟨i, hi⟩, ⟨j, hj⟩, fun i' hi' j' => ?_, fun j' hj' => ?_, ?_, ?_⟩
  · rw [← hA.bit, ← hB.bit, h1 i' hi' j' j'.2]
  · rw [← hA.bit, ← hB.bit]
    exact congrArg bitF (h4 j' hj' j'.2)
  · rw [← hA.bit]
    show bitF (MA.bit i j) = 0
    rw [h2]; rfl
  · rw [← hB.bit]
    show bitF (MB.bit i j) = 1
    rw [h3]; rfl

/-- C105: `mzd_cmp` on matrices of the same size with at least one column: it returns 0 exactly for equal matrices, -1 exactly if the first precedes the
second, and 1 exactly if the second precedes the first.  The unused bits play no role. -/
theorem C105_cmp {MA MB : Mzd} {A B : Matrix (Fin r) (Fin c) (ZMod 2)} (hc : 0 < c) (hA : Rep MA A) (hB : Rep MB B) :
    (mzd_cmp MA MB = .ok 0 ↔ A = B) ∧ (mzd_cmp MA MB = .ok (-1) ↔ Precedes A B) ∧ (mzd_cmp MA MB = .ok 1 ↔ Precedes B A) := by
  obtain ⟨x, e, hx⟩ := cmp_spec hA.wf hB.wf (by rw [hA.ncols]; exact hc) (hB.nrows.trans hA.nrows.symm) (hB.ncols.trans hA.ncols.symm)
  rw [e]
  have hd : ∀ a b : Int, a ≠ b → ¬ ((.ok a : C Int) = .ok b) := fun a b h h' => h (Except.ok.inj h')
  rcases hx with ⟨rfl, h⟩ | ⟨rfl, h⟩ | ⟨rfl, h⟩
  · have := precedes_of hA hB h
    exact ⟨⟨fun h' => absurd h' (hd _ _ (by decide)), fun h' => absurd h' (precedes_ne this)⟩, ⟨fun _ => this, fun _ => rfl⟩,
      ⟨fun h' => absurd h' (hd _ _ (by decide)), fun h' => absurd h' (precedes_asymm this)⟩⟩
  · have := precedes_of hB hA h
    exact ⟨⟨fun h' => absurd h' (hd _ _ (by decide)), fun h' => absurd h'.symm (precedes_ne this)⟩, ⟨fun h' => absurd h' (hd _ _ (by decide)), fun h' => absurd this (precedes_asymm h')⟩,
      ⟨fun _ => this, fun _ => rfl⟩⟩
  · have heq : A = B := by
      ext i j
      rw [← hA.bit, ← hB.bit, h i (by rw [hA.nrows]; exact i.2) j (by rw [hA.ncols]; exact j.2)]
    exact ⟨⟨fun _ => heq, fun _ => rfl⟩, ⟨fun h' => absurd h' (hd _ _ (by decide)), fun h' => absurd heq (precedes_ne h')⟩,
      ⟨fun h' => absurd h' (hd _ _ (by decide)), fun h' => absurd heq.symm (precedes_ne h')⟩⟩

/-- C105: every two different matrices of the same size are in this order, one way or the other. -/
theorem C105_order {A B : Matrix (Fin r) (Fin c) (ZMod 2)} (hne : A ≠ B) : Precedes A B ∧ ¬ Precedes B A ∨ Precedes B A ∧ ¬ Precedes A B := by
  have hc : 0 < c := by
    rcases Nat.eq_zero_or_pos c with rfl | h
    · exact absurd (by ext i j; exact j.elim0) hne
    · exact h
  have hA : Rep (pack r c fun i j => if h : i < r ∧ j < c then decide (A ⟨i, h.1⟩ ⟨j, h.2⟩ = 1) else false) A := pack_rep fun i j => by
    rw [dif_pos ⟨i.2, j.2⟩]
    show bitF (decide (A i j = 1)) = A i j
    have : ∀ x : ZMod 2, bitF (decide (x = 1)) = x := by decide
    exact this _
  have hB : Rep (pack r c fun i j => if h : i < r ∧ j < c then decide (B ⟨i, h.1⟩ ⟨j, h.2⟩ = 1) else false) B := pack_rep fun i j => by
    rw [dif_pos ⟨i.2, j.2⟩]
    show bitF (decide (B i j = 1)) = B i j
    have : ∀ x : ZMod 2, bitF (decide (x = 1)) = x := by decide
    exact this _
  obtain ⟨x, e, hx⟩ := cmp_spec hA.wf hB.wf hc rfl rfl
  rcases hx with ⟨rfl, h⟩ | ⟨rfl, h⟩ | ⟨rfl, h⟩
  · have := precedes_of hA hB h
    exact .inl ⟨this, precedes_asymm this⟩
  · have := precedes_of hB hA h
    exact .inr ⟨this, precedes_asymm this⟩
  · exact absurd ((C105_cmp hc hA hB).1.1 e) hne

/-- C105: for matrices of different sizes `mzd_cmp` compares the numbers of rows and then the numbers of columns. -/
theorem C105_cmp_sizes {A B : Mzd} (h : A.nrows < B.nrows ∨ A.nrows = B.nrows ∧ A.ncols < B.ncols) : mzd_cmp A B = .ok (-1) ∧ mzd_cmp B A = .ok 1 := by
  unfold mzd_cmp
  rcases h with h | ⟨h, h'⟩
  · rw [if_pos h, if_neg (by omega), if_pos h]; exact ⟨rfl, rfl⟩
  · rw [if_neg (by omega), if_neg (by omega), if_pos h', if_neg (by omega), if_neg (by omega), if_neg (by omega), if_pos h']; exact ⟨rfl, rfl⟩

/-- C105, what goes wrong: comparing two matrices that have rows but no columns reads outside of the rows, and so does copying one. -/
theorem C105_no_columns_violated {r : Nat} (hr : 0 < r) : mzd_cmp (mzd_init r 0) (mzd_init r 0) = .error .oob ∧ mzd_copy_new (mzd_init r 0) = .error .oob ∧
    ∀ rnd, mzd_randomize rnd (mzd_init r 0) = .error .oob := by
  have hg : ∀ j, (mzd_init r 0).get 0 j = .error .oob := fun j => if_neg (show ¬ (0 < r ∧ 0 + j < 0) by omega)
  obtain ⟨n, rfl⟩ : ∃ n, r = n + 1 := ⟨r - 1, by omega⟩
  refine ⟨?_, ?_, fun rnd => ?_⟩
  · unfold mzd_cmp
    rw [if_neg (Nat.lt_irrefl _), if_neg (Nat.lt_irrefl _), if_neg (Nat.lt_irrefl _), if_neg (Nat.lt_irrefl _)]
    have : cmpRow (mzd_init (n + 1) 0) (mzd_init (n + 1) 0) 0 = .error .oob := by unfold cmpRow; rw [hg]; rfl
    unfold forRet
    rw [show (mzd_init (n + 1) 0).nrows - 0 = n + 1 from rfl, List.range'_succ]
    unfold iterStop
    rw [this]
    rfl
  · unfold mzd_copy_new mzd_copy
    rw [if_neg (by simp [mzd_init])]
    unfold forUp
    rw [show (mzd_init (n + 1) 0).nrows - 0 = n + 1 from rfl, List.range'_succ, List.foldlM_cons]
    have : (mzd_init (mzd_init (n + 1) 0).nrows (mzd_init (n + 1) 0).ncols) = mzd_init (n + 1) 0 := rfl
    have e : List.range' 0 ((mzd_init (n + 1) 0).width - 1 - 0) = [] := by simp [Mzd.width, mzd_init]
    simp only [this, e, List.foldlM_nil, C_pure_bind, hg]
    rfl
  · unfold mzd_randomize forUp
    rw [show (mzd_init (n + 1) 0).nrows - 0 = n + 1 from rfl, List.range'_succ, List.foldlM_cons]
    have : List.range' 0 ((mzd_init (n + 1) 0).width - 1 - 0) = [] := by simp [Mzd.width, mzd_init]
    simp only [this, List.foldlM_nil, C_pure_bind, hg]
    rfl

/-! ## Examples -/

/-- A matrix of 3 rows and 70 columns. -/
def exT : Matrix (Fin 3) (Fin 70) (ZMod 2) := fun i j => bitF (decide (((i : Nat) + 2 * j) % 5 < 2))

/-- Its words. -/
def exTM : Mzd := pack 3 70 fun i j => decide ((i + 2 * j) % 5 < 2)

theorem exT_rep : Rep exTM exT := pack_rep fun _ _ => rfl

theorem exT_clean : exTM.Clean := pack_clean _ _ _

example : ∃ N, mzd_add exTM exTM = .ok N ∧ Rep N (exT + exT) ∧ N.Clean := C105_add exT_rep exT_rep
example : ∃ N, mzd_concat exTM exTM = .ok N ∧ Rep N (m4ri.concatMat exT exT) ∧ N.Clean := C105_concat exT_rep exT_clean exT_rep
example : ∃ N, mzd_stack exTM exTM = .ok N ∧ Rep N (m4ri.stackMat exT exT) ∧ (exTM.Clean → exTM.Clean → N.Clean) := C105_stack exT_rep exT_rep
example : ∃ N, mzd_copy_new exTM = .ok N ∧ Rep N exT ∧ N.Clean := C105_copy (by decide) exT_rep
example : ∃ b, mzd_read_bit exTM (2 : Fin 3) (69 : Fin 70) = .ok b ∧ bitF b = exT 2 69 := C105_read_bit exT_rep 2 69
example : ∃ N, mzd_write_bit exTM (2 : Fin 3) (69 : Fin 70) true = .ok N ∧ Rep N (exT.updateRow 2 (Function.update (exT 2) 69 (bitF true))) ∧ ∀ a k, 70 ≤ k → N.bit a k = exTM.bit a k :=
  C105_write_bit exT_rep 2 69 true

/-- The programs are run. -/
example : (match mzd_concat exTM exTM with | .ok N => (List.range 3).map fun j => (N.word 2 j).toNat | .error _ => []) = [5355506343980192404, 10711012687960384809, 2642] := by decide +kernel
example : (match mzd_from_str 2 3 [49#8, 48#8, 49#8, 48#8, 50#8, 49#8] with | .ok N => (List.range 2).map fun i => (N.word i 0).toNat | .error _ => []) = [5, 4] := by decide +kernel
example : mzd_cmp exTM exTM = .ok 0 ∧ mzd_cmp (pack 2 70 fun i j => decide (i = 0 ∧ j = 69)) (pack 2 70 fun i j => decide (i = 1 ∨ j = 68)) = .ok 1 := by decide +kernel
example : (match mzd_from_str 2 3 [49#8] with | .error .oob => true | _ => false) = true := by decide +kernel

/-- The order: the first row decides, and in it the last column. -/
example : Precedes (Matrix.of ![![1, 1, 0], ![0, 0, 1]] : Matrix (Fin 2) (Fin 3) (ZMod 2)) (Matrix.of ![![0, 0, 1], ![0, 0, 0]]) := ⟨0, 2, fun i' h => absurd h (Fin.not_lt_zero i'), fun j' h => by have := j'.2; omega, by decide, by decide⟩

end WB.m4w
