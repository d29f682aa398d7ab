import Verif.Proof.M4riCodes

/-!
# C139 — loading and unloading M4RI (`m4ri_init`, `m4ri_fini`, `m4ri_build_all_codes`, `m4ri_destroy_all_codes`)

`LibRuns th s l` (`SpecM4riCodes.lean`): `s` is a state that a program reaches which calls `m4ri_init`, `m4ri_fini`, `m4ri_mmc_malloc` and `m4ri_mmc_free` in any order and frees each
block at most once; `l` are the blocks that it has not freed yet.
-/
namespace WB.m4a

variable {th : Nat} {s : Lib} {l : List (Nat × Nat)}

/-- C139: `m4ri_fini` never frees memory twice and uses none that is freed, however often and in whatever order the library is loaded and unloaded.  Afterwards there is no code book, and
the blocks that the program has not freed are all the memory that is allocated. -/
theorem C139_fini (h : LibRuns th s l) : ∃ s', m4ri_fini s = .ok s' ∧ LibRuns th s' l ∧ s'.book = 0 ∧ ∀ p n, s'.mmc.sys.live p = some n ↔ (p, n) ∈ l := by
  obtain ⟨s', e, h1, hb, hz⟩ := fini_spec h.inv
  exact ⟨s', e, .fini h e, hb, h1.exact hz⟩

/-- C139: while there is a code book, all its memory is allocated, in the sizes that `m4ri_build_code` needs. -/
theorem C139_live (h : LibRuns th s l) (hb : s.book ≠ 0) : s.mmc.sys.live s.book = some (17 * 8) ∧
    ∀ k, 1 ≤ k → k ≤ 16 → s.mmc.sys.live (s.code k) = some 16 ∧ s.mmc.sys.live (s.ord k) = some (2 ^ k * 4) ∧ s.mmc.sys.live (s.inc k) = some (2 ^ k * 4) := by
  have hi := h.inv
  have e : bookPool s = (List.range' 1 16).flatMap (cells s) ++ [(s.book, 136)] := if_neg hb
  rw [e] at hi
  refine ⟨(hi.live (n := 136) (by simp)).1, fun k h1 h2 => ?_⟩
  have hm : ∀ x ∈ cells s k, x ∈ (List.range' 1 16).flatMap (cells s) ++ [(s.book, 136)] ++ l := fun x hx =>
    List.mem_append_left _ (List.mem_append_left _ (List.mem_flatMap.2 ⟨k, List.mem_range'_1.2 ⟨h1, by omega⟩, hx⟩))
  exact ⟨(hi.live (hm (s.code k, 16) (by simp [cells]))).1, (hi.live (hm (s.ord k, 2 ^ k * 4) (by simp [cells]))).1, (hi.live (hm (s.inc k, 2 ^ k * 4) (by simp [cells]))).1⟩

/-- C139: after `m4ri_init` there is a code book, whatever happened before. -/
theorem C139_init (h : LibRuns th s l) : LibRuns th (m4ri_init s) l ∧ (m4ri_init s).book ≠ 0 := ⟨.init h, (codes_init_spec h.inv).2⟩

/-- C139: a second call of `m4ri_init` changes nothing, so the code book is not lost. -/
theorem C139_twice (h : LibRuns th s l) : m4ri_init (m4ri_init s) = m4ri_init s := if_pos (C139_init h).2

/-- C139: the parts of the code book lie apart from each other and from the blocks of the program. -/
theorem C139_apart (h : LibRuns th s l) (hb : s.book ≠ 0) : ((List.range' 1 16).flatMap (fun k => [s.inc k, s.ord k, s.code k]) ++ [s.book] ++ l.map Prod.fst).Nodup := by
  obtain ⟨_, _, _, h3⟩ := h.inv
  have e : bookPool s = (List.range' 1 16).flatMap (cells s) ++ [(s.book, 136)] := if_neg hb
  rw [e, List.map_append, List.map_append, List.map_flatMap] at h3
  exact h3

/-- C139: the program's own memory keeps its addresses and sizes whenever the library is loaded or unloaded. -/
theorem C139_program (h : LibRuns th s l) {p n : Nat} (hp : (p, n) ∈ l) : s.mmc.sys.live p = some n ∧ p ≠ 0 := h.inv.live (List.mem_append_right _ hp)

/-- C139: a block that the program holds can be freed at any time, also after the library is unloaded. -/
theorem C139_free (h : LibRuns th s l) {l' : List (Nat × Nat)} {p n : Nat} (hp : l.Perm ((p, n) :: l')) : ∃ m, m4ri_mmc_free th p n s.mmc = .ok m ∧ LibRuns th { s with mmc := m } l' := by
  obtain ⟨m, e, _⟩ := (h.inv.perm ((hp.append_left (bookPool s)).trans List.perm_middle)).free
  exact ⟨m, e, .free h hp e⟩

/-! ## Examples -/

/-- The library is loaded twice; then unloaded, loaded and unloaded: nothing is left. -/
example : ∃ s1 s2, m4ri_fini (m4ri_init (m4ri_init .start)) = .ok s1 ∧ m4ri_fini (m4ri_init s1) = .ok s2 ∧ ∀ p, s2.mmc.sys.live p = none := by
  obtain ⟨s1, e1, h1, _⟩ := C139_fini (th := 1000) (.init (.init .start))
  obtain ⟨s2, e2, _, _, h⟩ := C139_fini (.init h1)
  refine ⟨s1, s2, e1, e2, fun p => ?_⟩
  cases hp : s2.mmc.sys.live p with
  | none => rfl
  | some n => exact absurd ((h p n).1 hp) (by simp)

/-- It is unloaded twice. -/
example : ∃ s1 s2, m4ri_fini (m4ri_init .start) = .ok s1 ∧ m4ri_fini s1 = .ok s2 := by
  obtain ⟨s1, e1, h1, _⟩ := C139_fini (th := 1000) (.init .start)
  obtain ⟨s2, e2, _⟩ := C139_fini h1
  exact ⟨s1, s2, e1, e2⟩

/-- A program holds a block of 24 bytes. -/
example : ∃ s, LibRuns 1000 s [(50, 24)] ∧ s.book ≠ 0 := by
  have h0 : LibRuns 1000 (m4ri_init .start) [] := .init .start
  refine ⟨_, .malloc (n := 24) (p := 50) h0 (by decide) rfl, (C139_init (th := 1000) .start).2⟩
example : (m4ri_init .start).mmc.sys.live (m4ri_init .start).book = some 136 := (C139_live (th := 1000) (.init .start) (C139_init (th := 1000) .start).2).1

end WB.m4a
