import Verif.Model.M4riPrint
import Verif.Proof.M4riMisc
import Verif.Proof.M4riTri

/-!
# Printing a matrix (helper lemmas)
-/
namespace WB.m4w

open WB.cmp (Mem)

/-- An entry. -/
def bitChar (b : Bool) : Char := if b then '1' else ' '

/-- What is before column `b` of a word. -/
def wsep (b : Nat) : List Char := if b ≠ 0 ∧ b % 4 = 0 then [':'] else []

/-- The first `n` bits of a word. -/
def wtext (w : Word) (n : Nat) : List Char := (List.range n).flatMap fun b => wsep b ++ [bitChar (w.getLsbD b)]

theorem wtext_succ (w : Word) (n : Nat) : wtext w (n + 1) = wtext w n ++ (wsep n ++ [bitChar (w.getLsbD n)]) := by
  unfold wtext
  rw [List.range_succ, List.flatMap_append]
  simp

theorem cstr_eq (a : Mem Char) : ∀ (l n j : Nat), l < n → (∀ k < l, a.cell (j + k) ≠ '\x00') → a.cell (j + l) = '\x00' → j + l < a.size →
    cstr a n j = .ok ((List.range l).map fun k => a.cell (j + k))
  | 0, n + 1, j, _, _, h2, h3 => by
    unfold cstr
    rw [Mem.get_eq (by omega), C_ok_bind, if_pos (show a.cell j = '\x00' from h2)]
    rfl
  | l + 1, n + 1, j, h0, h1, h2, h3 => by
    unfold cstr
    rw [Mem.get_eq (by omega), C_ok_bind, if_neg (by have := h1 0 (by omega); exact this),
      cstr_eq a l n (j + 1) (by omega) (fun k hk => by rw [show j + 1 + k = j + (k + 1) by omega]; exact h1 (k + 1) (by omega)) (by rw [show j + 1 + l = j + (l + 1) by omega]; exact h2) (by omega),
      C_ok_bind, C_pure_eq, List.range_succ_eq_map, List.map_cons, List.map_map]
    congr 2
    refine List.map_congr_left fun k _ => ?_
    show a.cell (j + 1 + k) = a.cell (j + (k + 1))
    rw [show j + 1 + k = j + (k + 1) by omega]

theorem map_text {e : Mem Char} {w : Word} (h1 : ∀ i < 64, e.cell (i + i / 4) = bitChar (w.getLsbD i)) (h2 : ∀ i < 15, e.cell (5 * i + 4) = ':') :
    ∀ n ≤ 64, (List.range (n + (n - 1) / 4)).map e.cell = wtext w n
  | 0, _ => rfl
  | n + 1, hn => by
    rw [wtext_succ, ← map_text h1 h2 n (by omega), show n + 1 - 1 = n by omega]
    unfold wsep
    by_cases g : n ≠ 0 ∧ n % 4 = 0
    · have e1 : n + 1 + n / 4 = n + (n - 1) / 4 + 1 + 1 := by omega
      have e2 : e.cell (n + (n - 1) / 4) = ':' := by
        have := h2 (n / 4 - 1) (by omega)
        rw [show 5 * (n / 4 - 1) + 4 = n + (n - 1) / 4 by omega] at this
        exact this
      have e3 : e.cell (n + (n - 1) / 4 + 1) = bitChar (w.getLsbD n) := by
        rw [← h1 n (by omega), show n + (n - 1) / 4 + 1 = n + n / 4 by omega]
      rw [if_pos g, e1, List.range_succ, List.range_succ, List.map_append, List.map_append, List.append_assoc]
      simp [e2, e3]
    · have e1 : n + 1 + n / 4 = n + (n - 1) / 4 + 1 := by omega
      have e3 : e.cell (n + (n - 1) / 4) = bitChar (w.getLsbD n) := by
        rw [← h1 n (by omega), show n + (n - 1) / 4 = n + n / 4 by omega]
      rw [if_neg g, e1, List.range_succ, List.map_append]
      simp [e3]

/-- A whole word is printed. -/
theorem word_print {d : Mem Char} (w : Word) (hd : d.size = 81) : ∃ e, m4ri_word_to_str d w true = .ok e ∧ e.size = 81 ∧ cstr e 81 0 = .ok (wtext w 64) := by
  obtain ⟨e, h, h1, h2, h3, h4, _⟩ := str_spec w true (d := d) (by rw [hd]; decide)
  refine ⟨e, h, h1.trans hd, ?_⟩
  have h2' : ∀ i < 64, e.cell (i + i / 4) = bitChar (w.getLsbD i) := h2
  have h3' := h3 rfl
  have h4' : e.cell 79 = '\x00' := h4
  have hne : ∀ b, bitChar b ≠ '\x00' := by decide
  have hn : ∀ k < 79, e.cell (0 + k) ≠ '\x00' := by
    intro k hk
    rw [Nat.zero_add]
    by_cases g : k % 5 = 4
    · have := h3' (k / 5) (by omega)
      rw [show 5 * (k / 5) + 4 = k by omega] at this
      rw [this]; decide
    · have := h2' (4 * (k / 5) + k % 5) (by omega)
      rw [show 4 * (k / 5) + k % 5 + (4 * (k / 5) + k % 5) / 4 = k by omega] at this
      rw [this]; exact hne _
  rw [cstr_eq e 79 81 0 (by omega) hn (by rw [Nat.zero_add]; exact h4') (by rw [h1, hd]; omega)]
  congr 1
  rw [← map_text h2' h3' 64 (by omega)]
  refine List.map_congr_left fun k _ => ?_
  rw [Nat.zero_add]

/-- What is before column `b` of a row. -/
def colSep (b : Nat) : List Char := if b = 0 then [] else if b % 64 = 0 then ['|'] else if b % 4 = 0 then [':'] else []

/-- The first `n` columns of a row. -/
def rowText (M : Mzd) (i n : Nat) : List Char := (List.range n).flatMap fun b => colSep b ++ [bitChar (M.bit i b)]

theorem rowText_succ (M : Mzd) (i n : Nat) : rowText M i (n + 1) = rowText M i n ++ (colSep n ++ [bitChar (M.bit i n)]) := by
  unfold rowText
  rw [List.range_succ, List.flatMap_append]
  simp

theorem rowText_word (M : Mzd) (i j : Nat) : ∀ n < 64, rowText M i (64 * j + (n + 1)) = rowText M i (64 * j) ++ (if j = 0 then [] else ['|']) ++ wtext (M.word i j) (n + 1)
  | 0, _ => by
    have e : M.bit i (64 * j) = (M.word i j).getLsbD 0 := by unfold Mzd.bit; rw [show 64 * j / 64 = j by omega, show 64 * j % 64 = 0 by omega]
    have e1 : colSep (64 * j) = if j = 0 then [] else ['|'] := by
      unfold colSep
      by_cases g : j = 0
      · rw [if_pos (by omega), if_pos g]
      · rw [if_neg (by omega), if_pos (by omega), if_neg g]
    rw [Nat.zero_add, rowText_succ, e, e1, wtext_succ]
    simp [wtext, wsep]
  | n + 1, hn => by
    have e : M.bit i (64 * j + (n + 1)) = (M.word i j).getLsbD (n + 1) := by
      unfold Mzd.bit; rw [show (64 * j + (n + 1)) / 64 = j by omega, show (64 * j + (n + 1)) % 64 = n + 1 by omega]
    have e1 : colSep (64 * j + (n + 1)) = wsep (n + 1) := by
      unfold colSep wsep
      rw [if_neg (by omega), if_neg (by omega)]
      by_cases g : (n + 1) % 4 = 0
      · rw [if_pos (by omega), if_pos ⟨by omega, g⟩]
      · rw [if_neg (by omega), if_neg fun h => g h.2]
    rw [show 64 * j + (n + 1 + 1) = 64 * j + (n + 1) + 1 by omega, rowText_succ, rowText_word M i j n (by omega), e, e1, wtext_succ (M.word i j) (n + 1), List.append_assoc, List.append_assoc]

theorem print_row_spec {M : Mzd} (w : M.Wf) (h0 : 0 < M.ncols) (junk : Nat → Char) {i : Nat} (hi : i < M.nrows) :
    Ok (mzd_fprint_row junk M i) fun out => out = '[' :: rowText M i M.ncols ++ [']', '\n'] := by
  have hwd : M.width = (M.ncols + 63) / 64 := rfl
  unfold mzd_fprint_row
  refine Ok.bind (P := fun s : Mem Char × List Char => s.2 = '[' :: rowText M i (64 * (M.width - 1)) ++ if M.width - 1 = 0 then [] else ['|']) ?_ ?_
  · refine Ok.forUp (P := fun j s => s.1.size = 81 ∧ s.2 = '[' :: rowText M i (64 * j) ++ if j = 0 then [] else ['|']) (Nat.zero_le _) ⟨rfl, rfl⟩ ?_ (fun s h => h.2)
    intro j s _ hj ⟨h1, h2⟩
    rw [get_eq (w.at hi (show j < M.width by omega)), C_ok_bind]
    obtain ⟨e, a, b, c⟩ := word_print (M.word i j) h1
    rw [a, C_ok_bind, c, C_ok_bind, Ok.pure_iff]
    refine ⟨b, ?_⟩
    show s.2 ++ wtext (M.word i j) 64 ++ ['|'] = _
    rw [h2, show 64 * (j + 1) = 64 * j + (63 + 1) by omega, rowText_word M i j 63 (by omega), if_neg (show ¬ j + 1 = 0 by omega)]
    simp
  · intro s hs
    rw [if_neg (by omega), get_eq (w.at hi (show M.width - 1 < M.width by omega)), C_ok_bind]
    dsimp only
    generalize hw : (if M.ncols % 64 ≠ 0 then M.ncols % 64 else 64) = wide
    have hw1 : 64 * (M.width - 1) + wide = M.ncols ∧ 0 < wide ∧ wide ≤ 64 := by rw [← hw]; split_ifs <;> omega
    refine Ok.bind (P := fun out => out = s.2 ++ wtext (M.word i (M.width - 1)) wide) ?_ ?_
    · refine Ok.forUp (P := fun j out => out = s.2 ++ wtext (M.word i (M.width - 1)) j) (Nat.zero_le _) (by simp [wtext]) ?_ (fun s h => h)
      intro j out _ _ ho
      rw [Ok.pure_iff, wtext_succ, ho]
      unfold printBit wsep bitChar
      dsimp only
      split_ifs <;> simp
    · intro out ho
      rw [Ok.pure_iff, ho, hs]
      obtain ⟨n, rfl⟩ : ∃ n, wide = n + 1 := ⟨wide - 1, by omega⟩
      rw [← hw1.1, rowText_word M i (M.width - 1) n (by omega)]
      simp

theorem print_spec {M : Mzd} (w : M.Wf) (h0 : 0 < M.ncols) (junk : Nat → Nat → Char) :
    Ok (mzd_fprint junk M) fun out => out = (List.range M.nrows).flatMap fun i => '[' :: rowText M i M.ncols ++ [']', '\n'] := by
  unfold mzd_fprint
  refine Ok.forUp (P := fun r out => out = (List.range r).flatMap fun i => '[' :: rowText M i M.ncols ++ [']', '\n']) (Nat.zero_le _) rfl ?_ (fun _ h => h)
  intro r out _ hr ho
  obtain ⟨t, e, ht⟩ := print_row_spec w h0 (junk r) hr
  rw [e, C_ok_bind, Ok.pure_iff, ho, ht, List.range_succ, List.flatMap_append]
  simp

end WB.m4w
