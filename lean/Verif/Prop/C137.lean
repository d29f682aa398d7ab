import Verif.Proof.M4riJcf

/-!
# C137 — reading matrices in JCF format with M4RI (`/repo/test/github1_M4RI/src/m4ri/io.c`, `mzd_from_jcf`)

`JcfValid m n l` says that the numbers `l` describe a matrix of this size, `JcfEntry l a b` that entry `(a, b)` is one of those they list.
-/
namespace WB.m4w

variable {m n : Nat} {l : List Int}

/-- C137, full statement: numbers that describe a matrix of the size in the header give this matrix; for all others the program ends with an error message. -/
def C137_statement : Prop := ∀ {m n : Nat} {l : List Int}, n < 2 ^ 31 → (∀ e ∈ l, -2 ^ 63 < e) →
  (JcfValid m n l → ∃ N, mzd_from_jcf (some (m, n, 2)) l = .ok (some N) ∧ N.nrows = m ∧ N.ncols = n ∧ N.Wf ∧ ∀ a b, N.bit a b = true ↔ JcfEntry l a b) ∧
  (¬ JcfValid m n l → mzd_from_jcf (some (m, n, 2)) l = .error .abort)

/-- C137, what holds: numbers that describe a matrix give this matrix, with zeros behind the last column. -/
theorem C137_read_partial (hn : n < 2 ^ 31) (h : JcfValid m n l) :
    ∃ N, mzd_from_jcf (some (m, n, 2)) l = .ok (some N) ∧ N.nrows = m ∧ N.ncols = n ∧ N.Wf ∧ ∀ a b, N.bit a b = true ↔ JcfEntry l a b := by
  obtain ⟨s, e, sh, _, h3⟩ := jcf_fold (by omega) h
  refine ⟨s.1, ?_, sh.nrows, sh.ncols, sh.wf (init_wf m n), h3⟩
  show (l.foldlM jcfStep (mzd_init m n, -1) >>= _) = _
  rw [e]
  rfl

/-- C137, what holds: a column that is too large after valid numbers ends the program. -/
theorem C137_column_partial (hn : n < 2 ^ 31) (h : JcfValid m n l) {x : Int} (hx : -2 ^ 63 < x) (hc : n < x.natAbs) (rest : List Int) :
    mzd_from_jcf (some (m, n, 2)) (l ++ x :: rest) = .error .abort := by
  refine jcf_next (by omega) h rest fun s _ h2 _ => ?_
  unfold jcfStep
  rw [if_neg (by omega)]
  dsimp only
  rw [if_pos (.inl (by rw [h2]; split_ifs <;> omega))]

/-- C137, what holds: a row too many after valid numbers ends the program. -/
theorem C137_row_partial (hn : n < 2 ^ 31) (h : JcfValid m n l) {x : Int} (hx : -2 ^ 63 < x) (hneg : x < 0) (hr : jcfRows l = m) (rest : List Int) :
    mzd_from_jcf (some (m, n, 2)) (l ++ x :: rest) = .error .abort := by
  refine jcf_next (by omega) h rest fun s h1 _ h3 => ?_
  unfold jcfStep
  rw [if_neg (by omega)]
  dsimp only
  rw [if_pos (.inr (by rw [h1, h3, if_pos hneg]; omega))]

/-- C137: no matrix is returned for a file without header or for another modulus. -/
theorem C137_header (p : Int) (hp : p ≠ 2) (l : List Int) : mzd_from_jcf none l = .ok none ∧ mzd_from_jcf (some (m, n, p)) l = .ok none := ⟨rfl, if_pos hp⟩

/-- C137, what goes wrong: if the first number is a column of the matrix, row -1 is written to. -/
theorem C137_first_violated {x : Int} (h1 : 1 ≤ x) (h2 : x ≤ n) (rest : List Int) : mzd_from_jcf (some (m, n, 2)) (x :: rest) = .error .oob := by
  show ((x :: rest).foldlM jcfStep (mzd_init m n, -1) >>= _) = _
  rw [List.foldlM_cons]
  have : jcfStep (mzd_init m n, -1) x = .error .oob := by
    unfold jcfStep
    rw [if_neg (by omega)]
    dsimp only
    have e1 : (mzd_init m n).ncols = n := rfl
    rw [if_neg (show ¬ x < 0 by omega), if_neg (show ¬ x < 0 by omega), e1, if_neg (by omega), if_pos (by decide)]
  rw [this]
  rfl

/-- C137, what goes wrong: a zero after valid numbers makes a shift negative. -/
theorem C137_zero_violated (hn : n < 2 ^ 31) (h : JcfValid m n l) (hl : l ≠ []) (rest : List Int) : mzd_from_jcf (some (m, n, 2)) (l ++ 0 :: rest) = .error .overflow := by
  have hp := h.pos hl
  have hr := h.row
  refine jcf_next (by omega) h rest fun s h1 h2 h3 => ?_
  unfold jcfStep
  rw [if_neg (by omega)]
  dsimp only
  rw [if_neg (show ¬ (0 : Int) < 0 by omega), if_neg (show ¬ (0 : Int) < 0 by omega), h1, h2, h3, if_neg (by omega), if_neg (by omega), if_pos (by omega)]

/-- C137, what the format cannot describe: a row of zeros before one with entries. -/
theorem C137_zero_rows {N : Mzd} (hn : n < 2 ^ 31) (h : JcfValid m n l) (e : mzd_from_jcf (some (m, n, 2)) l = .ok (some N)) {a a' b : Nat} (hb : N.bit a b = true) (ha : a' < a) :
    ∃ b', N.bit a' b' = true := by
  obtain ⟨N', e', _, _, _, hN⟩ := C137_read_partial hn h
  rw [e] at e'
  obtain rfl := Option.some.inj (Except.ok.inj e')
  obtain ⟨k, x, h1, h2, h3⟩ := (hN a b).1 hb
  -- the number of rows grows by at most one with each number
  have hk : ∀ k, k ≤ l.length → a' + 1 ≤ jcfRows (l.take k) → ∃ b', JcfEntry l a' b' := by
    intro k
    induction k with
    | zero => intro _ g; exact absurd g (by simp [jcfRows])
    | succ k ih =>
      intro hk g
      by_cases g' : a' + 1 ≤ jcfRows (l.take k)
      · exact ih (by omega) g'
      · have hlt : k < l.length := by omega
        have e1 : l.take (k + 1) = l.take k ++ [l[k]] := by rw [List.take_succ_eq_append_getElem hlt]
        have e2 : jcfRows (l.take (k + 1)) = a' + 1 := by
          have := jcfRows_append (l.take k) l[k]
          rw [← e1] at this
          split_ifs at this <;> omega
        have h0 := h.nonzero l[k] (List.getElem_mem hlt)
        exact ⟨l[k].natAbs - 1, k, l[k], List.getElem?_eq_getElem hlt, by omega, e2⟩
  have hlt : k < l.length := (List.getElem?_eq_some_iff.1 h1).1
  obtain ⟨b', hb'⟩ := hk (k + 1) (by omega) (by omega)
  exact ⟨b', (hN a' b').2 hb'⟩

/-- C137: the full statement is false. -/
theorem C137_violated : ¬ C137_statement := by
  intro h
  have h1 := (h (m := 1) (n := 1) (l := [1]) (by decide) (by decide)).2 fun v => absurd (v.first 1 rfl) (by decide)
  rw [C137_first_violated (by decide) (by decide) []] at h1
  exact absurd h1 (by simp)

/-- The numbers of the documentation are valid. -/
theorem exJcf : JcfValid 3 2 [-2, -1, -2] :=
  ⟨by decide, by decide, by decide, fun e he => by obtain rfl : -2 = e := by simpa using he
                                                   decide⟩

/-- The example of the documentation: the rows are 01, 10 and 01. -/
example : (mzd_from_jcf (some (3, 2, 2)) [-2, -1, -2]).map (Option.map fun N => (N.word 0 0, N.word 1 0, N.word 2 0)) = .ok (some (2#64, 1#64, 2#64)) := by with_unfolding_all rfl

/-- The theorem applies to it; a fourth row ends the program, a zero is undefined. -/
example : (∃ N, mzd_from_jcf (some (3, 2, 2)) [-2, -1, -2] = .ok (some N) ∧ N.nrows = 3 ∧ N.ncols = 2 ∧ N.Wf ∧ ∀ a b, N.bit a b = true ↔ JcfEntry [-2, -1, -2] a b) ∧
    mzd_from_jcf (some (3, 2, 2)) [-2, -1, -2, -1] = .error .abort ∧ mzd_from_jcf (some (3, 2, 2)) [-2, -1, -2, 0] = .error .overflow :=
  ⟨C137_read_partial (by decide) exJcf, C137_row_partial (by decide) exJcf (x := -1) (by decide) (by decide) rfl [], C137_zero_violated (by decide) exJcf (by simp) []⟩

end WB.m4w
