import Verif.Proof.M4riPrint
import Verif.Proof.M4riPack

/-!
# C136 — printing matrices of M4RI (`/repo/test/github1_M4RI/src/m4ri/io.c`, `mzd_fprint_row`, and `/repo/test/github1_M4RI/include/m4ri/io.h`, `mzd_fprint`)
-/
namespace WB.m4w

variable {m n : Nat} {M : Mzd} {A B : Matrix (Fin m) (Fin n) (ZMod 2)}

/-- The text for an entry: `1` or a space, after `|` at a multiple of 64 and `:` at another multiple of 4, but nothing at the beginning. -/
def entryText (A : Matrix (Fin m) (Fin n) (ZMod 2)) (i : Fin m) (j : Fin n) : List Char :=
  (if (j : Nat) = 0 then [] else if 64 ∣ (j : Nat) then ['|'] else if 4 ∣ (j : Nat) then [':'] else []) ++ [if A i j = 1 then '1' else ' ']

/-- The text for a row. -/
def lineText (A : Matrix (Fin m) (Fin n) (ZMod 2)) (i : Fin m) : List Char := '[' :: (List.finRange n).flatMap (entryText A i) ++ [']', '\n']

/-- The text for a matrix. -/
def matText (A : Matrix (Fin m) (Fin n) (ZMod 2)) : List Char := (List.finRange m).flatMap (lineText A)

/-- C136, full statement: `mzd_fprint` writes this text, whatever is in its buffer at the beginning. -/
def C136_statement : Prop := ∀ {m n : Nat} {M : Mzd} {A : Matrix (Fin m) (Fin n) (ZMod 2)}, Rep M A → ∀ junk, mzd_fprint junk M = .ok (matText A)

theorem flatMap_fin {α : Type} (n : Nat) (f : Nat → List α) : (List.range n).flatMap f = (List.finRange n).flatMap fun i : Fin n => f i := by
  rw [← List.map_coe_finRange_eq_range, List.flatMap_map]

theorem rowText_rep (hM : Rep M A) (i : Fin m) : rowText M i n = (List.finRange n).flatMap (entryText A i) := by
  unfold rowText
  rw [flatMap_fin]
  refine congrArg (fun f => List.flatMap f (List.finRange n)) (funext fun j => ?_)
  unfold entryText
  have e : [bitChar (M.bit i j)] = [if A i j = 1 then '1' else ' '] := by
    rw [← hM.bit i j]
    cases M.bit i j <;> decide
  rw [e]
  congr 1
  unfold colSep
  simp only [Nat.dvd_iff_mod_eq_zero]

/-- C136, what holds: the full statement, for matrices with columns or without rows. -/
theorem C136_print_partial (hM : Rep M A) (h0 : 0 < n ∨ m = 0) (junk : Nat → Nat → Char) : mzd_fprint junk M = .ok (matText A) := by
  rcases h0 with h0 | h0
  · obtain ⟨t, e, ht⟩ := print_spec hM.wf (by rw [hM.ncols]; exact h0) junk
    rw [e, ht, hM.nrows, hM.ncols, flatMap_fin]
    congr 1
    unfold matText lineText
    refine congrArg (fun f => List.flatMap f (List.finRange m)) (funext fun i => ?_)
    rw [rowText_rep hM i]
  · unfold mzd_fprint matText
    rw [hM.nrows]
    subst h0
    rfl

/-- C136: a single row. -/
theorem C136_row (hM : Rep M A) (h0 : 0 < n) (junk : Nat → Char) (i : Fin m) : mzd_fprint_row junk M i = .ok (lineText A i) := by
  obtain ⟨t, e, ht⟩ := print_row_spec hM.wf (by rw [hM.ncols]; exact h0) junk (i := i) (by rw [hM.nrows]; exact i.2)
  rw [e, ht, hM.ncols, rowText_rep hM i]
  rfl

theorem flatMap_inj {α β : Type} {f g : α → List β} (hl : ∀ a, (f a).length = (g a).length) : ∀ l : List α, l.flatMap f = l.flatMap g → ∀ a ∈ l, f a = g a
  | [], _, _, h => absurd h (by simp)
  | b :: l, h, a, ha => by
    rw [List.flatMap_cons, List.flatMap_cons] at h
    obtain ⟨h1, h2⟩ := List.append_inj h (hl b)
    rcases List.mem_cons.1 ha with rfl | ha
    · exact h1
    · exact flatMap_inj hl l h2 a ha

theorem entryText_length (i : Fin m) (j : Fin n) : (entryText A i j).length = (entryText B i j).length := by
  unfold entryText
  rw [List.length_append, List.length_append]
  rfl

theorem flatMap_length {α β : Type} {f g : α → List β} (hl : ∀ a, (f a).length = (g a).length) (l : List α) : (l.flatMap f).length = (l.flatMap g).length := by
  rw [List.length_flatMap, List.length_flatMap]
  exact congrArg (fun h => (l.map h).sum) (funext hl)

/-- C136: matrices of the same size with the same text are equal. -/
theorem C136_injective (h : matText A = matText B) : A = B := by
  have hE : ∀ i, ((List.finRange n).flatMap (entryText A i)).length = ((List.finRange n).flatMap (entryText B i)).length := fun i => flatMap_length (fun j => entryText_length i j) _
  have hl : ∀ i, (lineText A i).length = (lineText B i).length := fun i => by
    unfold lineText
    simp only [List.length_append, List.length_cons, hE i]
  ext i j
  have h1 := flatMap_inj hl _ h i (List.mem_finRange i)
  unfold lineText at h1
  have h2 := (List.append_inj h1 (by rw [List.length_cons, List.length_cons, hE i])).1
  have h3 := flatMap_inj (fun j => entryText_length i j) _ (List.cons.inj h2).2 j (List.mem_finRange j)
  unfold entryText at h3
  have h4 := List.append_cancel_left h3
  revert h4
  generalize A i j = a
  generalize B i j = b
  revert a b
  decide

/-- C136, what goes wrong: for a matrix with rows and without columns the word before the row is accessed. -/
theorem C136_no_columns_violated {A : Matrix (Fin (m + 1)) (Fin 0) (ZMod 2)} (hM : Rep M A) (junk : Nat → Nat → Char) : mzd_fprint junk M = .error .oob := by
  have hw : M.width = 0 := by unfold Mzd.width; rw [hM.ncols]
  unfold mzd_fprint
  rw [hM.nrows]
  refine forUp_first (by omega) ?_
  unfold mzd_fprint_row
  rw [hw]
  rfl

/-- C136: the full statement is false. -/
theorem C136_violated : ¬ C136_statement := by
  intro h
  have hM : Rep (mzd_init 1 0) (0 : Matrix (Fin 1) (Fin 0) (ZMod 2)) := ⟨init_wf _ _, rfl, rfl, fun _ j => j.elim0⟩
  have e := h hM fun _ _ => ' '
  rw [C136_no_columns_violated hM] at e
  exact absurd e (by simp)

/-- One row of 66 columns, with ones in the columns 1, 4 and 64 and behind the last one. -/
def exPrint : Mzd := ⟨1, 66, 0, ⟨1, 2, fun _ j => if j = 0 then 0x12#64 else 0xd#64⟩⟩

/-- What is printed. -/
example : mzd_fprint (fun _ _ => '?') exPrint = .ok "[ 1  :1   :    :    :    :    :    :    :    :    :    :    :    :    :    :    |1 ]\n".toList := by with_unfolding_all decide +kernel

/-- The theorem applies to it. -/
example (junk : Nat → Nat → Char) : mzd_fprint junk exPrint = .ok (matText (blk exPrint 0 0 1 66)) :=
  C136_print_partial (rep_blk ⟨Nat.le_refl 1, by decide⟩) (.inl (by decide)) junk

end WB.m4w
