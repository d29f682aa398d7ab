import Verif.Proof.M4riMisc

/-!
# C135 — a word as text in M4RI (`/repo/test/github1_M4RI/src/m4ri/misc.c`, `m4ri_word_to_str`)
-/
namespace WB.m4w

open WB.cmp (Mem)

/-- C135: with colons, 80 bytes are written: for each bit `1` or a space, a colon after every four of them but the last, and the end of the string.  The rest of the buffer is not changed. -/
theorem C135_colon {d : Mem Char} (data : Word) (hd : 80 ≤ d.size) : ∃ e, m4ri_word_to_str d data true = .ok e ∧ e.size = d.size ∧
    (∀ i < 16, ∀ t < 4, e.cell (5 * i + t) = if data.getLsbD (4 * i + t) then '1' else ' ') ∧ (∀ i < 15, e.cell (5 * i + 4) = ':') ∧ e.cell 79 = '\x00' ∧ ∀ j, 80 ≤ j → e.cell j = d.cell j := by
  obtain ⟨e, h, h1, h2, h3, h4, h5⟩ := str_spec data true (d := d) hd
  refine ⟨e, h, h1, fun i hi t ht => ?_, h3 rfl, h4, h5⟩
  have := h2 (4 * i + t) (by omega)
  rw [if_pos rfl, show 4 * i + t + (4 * i + t) / 4 = 5 * i + t by omega] at this
  exact this

/-- C135: without colons, 65 bytes are written. -/
theorem C135_plain {d : Mem Char} (data : Word) (hd : 65 ≤ d.size) : ∃ e, m4ri_word_to_str d data false = .ok e ∧ e.size = d.size ∧
    (∀ i < 64, e.cell i = if data.getLsbD i then '1' else ' ') ∧ e.cell 64 = '\x00' ∧ ∀ j, 65 ≤ j → e.cell j = d.cell j := by
  obtain ⟨e, h, h1, h2, _, h4, h5⟩ := str_spec data false (d := d) hd
  exact ⟨e, h, h1, h2, h4, h5⟩

/-- C135: the text determines the word, with and without colons. -/
theorem C135_injective {d d' : Mem Char} {x y : Word} {colon : Bool} (hd : 80 ≤ d.size) (hd' : 80 ≤ d'.size) {e e' : Mem Char} (h : m4ri_word_to_str d x colon = .ok e)
    (h' : m4ri_word_to_str d' y colon = .ok e') (he : ∀ j < 79, e.cell j = e'.cell j) : x = y := by
  have hb : ∀ n : Nat, 80 ≤ n → (if colon then 80 else 65) ≤ n := fun n hn => by split <;> omega
  obtain ⟨f, g, _, g2, _⟩ := str_spec x colon (d := d) (hb _ hd)
  obtain ⟨f', g', _, g2', _⟩ := str_spec y colon (d := d') (hb _ hd')
  rw [h] at g
  rw [h'] at g'
  obtain rfl := Except.ok.inj g
  obtain rfl := Except.ok.inj g'
  refine BitVec.eq_of_getLsbD_eq fun i hi => ?_
  have h1 := g2 i hi
  rw [he _ (by split <;> omega), g2' i hi] at h1
  revert h1
  cases x.getLsbD i <;> cases y.getLsbD i <;> decide

/-- The first bytes for the word 0x31, of a buffer as large as the documentation requires, and without colons. -/
example : ((m4ri_word_to_str ⟨83, fun _ => '?'⟩ 0x31#64 true).map fun e => (List.range 12).map e.cell) = .ok ['1', ' ', ' ', ' ', ':', '1', '1', ' ', ' ', ':', ' ', ' '] ∧
    ((m4ri_word_to_str ⟨65, fun _ => '?'⟩ 0x31#64 false).map fun e => (List.range 7).map e.cell) = .ok ['1', ' ', ' ', ' ', '1', '1', ' '] := by
  refine ⟨?_, ?_⟩ <;> with_unfolding_all rfl

/-- A buffer of 79 bytes is too small with colons. -/
example : (m4ri_word_to_str ⟨79, fun _ => '?'⟩ 0x31#64 true).map Mem.size = .error .oob := by with_unfolding_all rfl

/-- The theorem applies to it. -/
example (data : Word) : ∃ e, m4ri_word_to_str ⟨83, fun _ => '?'⟩ data true = .ok e ∧ e.cell 79 = '\x00' ∧ e.cell 80 = '?' :=
  (C135_colon data (d := ⟨83, fun _ => '?'⟩) (by decide)).elim fun e h => ⟨e, h.1, h.2.2.2.2.1, h.2.2.2.2.2 80 (by decide)⟩

end WB.m4w
