import Verif.Prop.C65

/-!
# C69 — comparing, exporting, importing and printing matrices of the layer on top of M4RI
-/
namespace WB
open m4ri

variable {lib : M4ri} {s : Heap}

theorem cmp_eq_of_size {a b r c r' c' : Nat} {A : Matrix (Fin r) (Fin c) (ZMod 2)} {B : Matrix (Fin r') (Fin c') (ZMod 2)}
    (hs : s.Ok) (ha : Points s a A) (hb : Points s b B) (h : r ≠ r' ∨ c ≠ c') :
    MatGf2Cmp a b s = .ok (if r < r' then -1 else if r' < r then 1 else if c < c' then -1 else 1, s) := by
  obtain ⟨ma, ha, hA⟩ := ha
  obtain ⟨mb, hb, hB⟩ := hb
  rw [MatGf2Cmp, mzd_cmp, MM_bind (deref_run hs ha), MM_bind (deref_run hs hb)]
  simp only [hA.nrows, hA.ncols, hB.nrows, hB.ncols]
  by_cases h1 : r < r'
  · rw [if_pos h1, if_pos h1]; rfl
  · rw [if_neg h1, if_neg h1]
    by_cases h2 : r' < r
    · rw [if_pos h2, if_pos h2]; rfl
    · rw [if_neg h2, if_neg h2]
      by_cases h3 : c < c'
      · rw [if_pos h3, if_pos h3]; rfl
      · rw [if_neg h3, if_neg h3, if_pos (by omega)]; rfl

/-- C69: `MatGf2Cmp` of two matrices of the same size returns 0 if they are equal and 1 or -1 otherwise, and exchanging the
two matrices changes the sign. -/
theorem C69_MatGf2Cmp (hs : s.Ok) {a b r c : Nat} {A B : Matrix (Fin r) (Fin c) (ZMod 2)} (hc : 0 < c)
    (ha : Points s a A) (hb : Points s b B) :
    ∃ v, MatGf2Cmp a b s = .ok (v, s) ∧ MatGf2Cmp b a s = .ok (-v, s) ∧ (v = 0 ↔ A = B) ∧ (v = 0 ∨ v = 1 ∨ v = -1) := by
  obtain ⟨ma, ha, hA⟩ := ha
  obtain ⟨mb, hb, hB⟩ := hb
  have hr : ma.nrows = mb.nrows := hA.nrows.trans hB.nrows.symm
  have hcc : ma.ncols = mb.ncols := hA.ncols.trans hB.ncols.symm
  refine ⟨_, cmp_run hs ha hb (by rw [hA.ncols]; exact hc) hr hcc, ?_, ?_, ?_⟩
  · rw [cmp_run hs hb ha (by rw [hB.ncols]; exact hc) hr.symm hcc.symm, cmpScan_flip hr hcc, stepVal_flip]
  · have h0 : stepVal (cmpScan ma mb) = 0 ↔ cmpScan ma mb = .next () := by
      cases h : cmpScan ma mb with
      | next u => simp [stepVal]
      | stop x =>
        have := cmpScan_val x h
        simp only [stepVal, reduceCtorEq, iff_false]
        omega
    rw [h0, cmpScan_next hcc]
    constructor
    · intro h
      funext i j
      rw [← hA.bit i j, ← hB.bit i j, h i j (by rw [hA.nrows]; exact i.2) (by rw [hA.ncols]; exact j.2)]
    · rintro rfl i j hi hj
      rw [hA.nrows] at hi
      rw [hA.ncols] at hj
      exact m4ri.bitF_inj ((hA.bit ⟨i, hi⟩ ⟨j, hj⟩).trans (hB.bit ⟨i, hi⟩ ⟨j, hj⟩).symm)
  · cases h : cmpScan ma mb with
    | next u => exact .inl rfl
    | stop x => exact .inr (cmpScan_val x h)

/-- C69: for matrices of different sizes `MatGf2Cmp` returns 1 or -1, and exchanging them changes the sign. -/
theorem C69_MatGf2Cmp_sizes (hs : s.Ok) {a b r c r' c' : Nat} {A : Matrix (Fin r) (Fin c) (ZMod 2)}
    {B : Matrix (Fin r') (Fin c') (ZMod 2)} (ha : Points s a A) (hb : Points s b B) (h : r ≠ r' ∨ c ≠ c') :
    ∃ v, MatGf2Cmp a b s = .ok (v, s) ∧ MatGf2Cmp b a s = .ok (-v, s) ∧ (v = 1 ∨ v = -1) := by
  refine ⟨_, cmp_eq_of_size hs ha hb h, ?_, ?_⟩
  · rw [cmp_eq_of_size hs hb ha (by tauto)]
    congr 2
    split_ifs <;> omega
  · split_ifs <;> simp

example : valueOf (MatGf2Cmp 1 1 exHeap) = some 0 := by decide +kernel
example : valueOf (MatGf2Cmp 1 2 exHeap) = some (-1) := by decide +kernel

/-- C69: importing what has been exported, on a machine with either byte order, makes a new matrix that is equal to the
first; the bytes are two numbers of four bytes and one character `0` or `1` per element. -/
theorem C69_roundTrip (hs : s.Ok) {a r c : Nat} {A : Matrix (Fin r) (Fin c) (ZMod 2)} (ha : Points s a A) (hr : r < 2 ^ 32)
    (hc : c < 2 ^ 32) (e : Endian) :
    ∃ bytes, ExportMatGf2ToStr e a s = .ok (bytes, s) ∧ bytes.length = 8 + r * c ∧
      (∀ (i : Fin r) (j : Fin c), bytes[8 + (i * c + j)]? = some (if A i j = 1 then 49#8 else 48#8)) ∧
      ∀ tail, ∃ m, ImportMatGf2FromStr e (bytes ++ tail) s = .ok (s.next, push s m) ∧ Is m A := by
  obtain ⟨ma, ha, hA⟩ := ha
  obtain ⟨a0, a1, a2, a3, ea, wa⟩ := word32_bytes32 e (BitVec.ofNat 32 ma.nrows)
  obtain ⟨b0, b1, b2, b3, eb, wb⟩ := word32_bytes32 e (BitVec.ofNat 32 ma.ncols)
  refine ⟨_, export_run hs ha e, ?_, ?_, ?_⟩
  · rw [List.length_append, List.length_append, digits_length, ea, eb, hA.nrows, hA.ncols]; rfl
  · intro i j
    have h := digits_get ma (r := ma.nrows) (i := i) (j := j) (by rw [hA.nrows]; exact i.2) (by rw [hA.ncols]; exact j.2)
    rw [hA.ncols] at h
    have h8 : (bytes32 e (BitVec.ofNat 32 ma.nrows) ++ bytes32 e (BitVec.ofNat 32 ma.ncols)).length = 8 := by
      rw [List.length_append, ea, eb]; rfl
    rw [List.getElem?_append_right (by rw [h8]; omega), h8, Nat.add_sub_cancel_left, h]
    have hb := hA.bit i j
    congr 1
    cases hx : ma.bit i j
    · rw [hx] at hb; rw [← hb]; decide
    · rw [hx] at hb; rw [← hb]; decide
  · intro tail
    obtain ⟨m, e1, h1, h2, h3⟩ := import_run hs ma tail
    refine ⟨m, ?_, h1.trans hA.nrows, h2.trans hA.ncols, ?_⟩
    · rw [ea, eb]
      show mzd_from_str (word32 e a0 a1 a2 a3).toNat (word32 e b0 b1 b2 b3).toNat (digits ma ma.nrows ++ tail) s = _
      rw [wa, wb, BitVec.toNat_ofNat, BitVec.toNat_ofNat, Nat.mod_eq_of_lt (by rw [hA.nrows]; exact hr),
        Nat.mod_eq_of_lt (by rw [hA.ncols]; exact hc), e1]
    · intro i j
      rw [h3 i j (by rw [hA.nrows]; exact i.2) (by rw [hA.ncols]; exact j.2)]
      exact hA.bit i j

example : valueOf (ExportMatGf2ToStr .little 3 exHeap) =
    some [2, 0, 0, 0, 3, 0, 0, 0, 49, 48, 49, 48, 49, 48] := by decide +kernel

/-- The text `DumpMatGf2` writes for a matrix: a line for every row, the elements with a space before and after each, and
an empty line at the end. -/
def matText {r c : Nat} (A : Matrix (Fin r) (Fin c) (ZMod 2)) : List Char :=
  ((List.finRange r).map fun i =>
    ((List.finRange c).map fun j => [' ', if A i j = 1 then '1' else '0', ' ']).flatten ++ ['\n']).flatten ++ ['\n']

/-- The text of `DumpMatGf2Line(mat, 0)`: the elements with a comma and a space after each, the rows separated by bars. -/
def lineText {r c : Nat} (A : Matrix (Fin r) (Fin c) (ZMod 2)) : List Char :=
  ((List.finRange r).map fun i =>
    ((List.finRange c).map fun j => [if A i j = 1 then '1' else '0', ',', ' ']).flatten ++ [' ', '|', ' ']).flatten

theorem range_finRange {α : Type} (n : Nat) (f : Nat → α) (g : Fin n → α) (h : ∀ i, f i.val = g i) :
    (List.range n).map f = (List.finRange n).map g := by
  refine List.ext_getElem (by simp) ?_
  intro i h1 h2
  simp only [List.getElem_map, List.getElem_range, List.getElem_finRange]
  exact h ⟨i, by simpa using h1⟩

theorem bit_char {m : Mzd} {r c : Nat} {A : Matrix (Fin r) (Fin c) (ZMod 2)} (hA : Is m A) (i : Fin r) (j : Fin c) :
    (if m.bit i j then '1' else '0') = if A i j = 1 then '1' else '0' := by
  rw [← hA.bit i j]
  cases m.bit i j <;> decide

/-- C69: what `DumpMatGf2` writes. -/
theorem C69_DumpMatGf2 (hs : s.Ok) {a r c : Nat} {A : Matrix (Fin r) (Fin c) (ZMod 2)} (ha : Points s a A) :
    DumpMatGf2 a s = .ok ((), { s with out := s.out ++ matText A }) := by
  obtain ⟨m, ha, hA⟩ := ha
  rw [DumpMatGf2, dump_run hs ha true]
  have : rowsText m true m.nrows ++ ['\n'] = matText A := by
    rw [rowsText, matText, hA.nrows, hA.ncols]
    congr 2
    refine range_finRange r _ _ ?_
    intro i
    simp only [rowText, if_true]
    congr 2
    refine range_finRange c _ _ ?_
    intro j
    rw [bit_char hA i j]; rfl
  rw [List.append_assoc, if_pos rfl, this]

/-- C69: what `DumpMatGf2Line(mat, 0)` writes. -/
theorem C69_DumpMatGf2Line (hs : s.Ok) {a r c : Nat} {A : Matrix (Fin r) (Fin c) (ZMod 2)} (ha : Points s a A) :
    DumpMatGf2Line a false s = .ok ((), { s with out := s.out ++ lineText A }) := by
  obtain ⟨m, ha, hA⟩ := ha
  rw [dump_run hs ha false]
  have : rowsText m false m.nrows = lineText A := by
    rw [rowsText, lineText, hA.nrows, hA.ncols]
    congr 1
    refine range_finRange r _ _ ?_
    intro i
    simp only [rowText, Bool.false_eq_true, if_false]
    congr 2
    refine range_finRange c _ _ ?_
    intro j
    rw [bit_char hA i j]; rfl
  rw [if_neg (by decide), List.append_nil, this]

example : (match DumpMatGf2 3 exHeap with | .ok (_, s) => s.out | .error _ => []) = " 1  0  1 \n 0  1  0 \n\n".toList := by
  decide +kernel

end WB
