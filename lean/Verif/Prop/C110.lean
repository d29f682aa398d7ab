import Verif.Proof.M4riAlloc
import Verif.SpecM4riAlloc

/-!
# C110: M4RI's cache of matrix headers never gives out a header twice, never fails and keeps no memory without need

`Holds s L` (`SpecM4riAlloc.lean`): `s` is a state that a program reaches which calls `mzd_t_malloc` and `mzd_t_free` in any order and as often as it
likes, and frees only headers that it holds; `L` is the set of headers that it holds.
-/
namespace WB.m4a

/-- `log2_floor` is the position of the highest bit that is set, for each word but 0. -/
theorem C110_log2 (v : BitVec 64) (h : v ≠ 0#64) : v.getLsbD (log2_floor v) = true ∧ ∀ k, log2_floor v < k → v.getLsbD k = false := log2_spec h

example : log2_floor 0x8000000000000001#64 = 63 ∧ log2_floor 0x16#64 = 4 := by decide

/-- A new header can always be had and differs from all that are held. -/
theorem C110_malloc (s : Cache) (L : Finset Hdr) (h : Holds s L) : ∃ p s', mzd_t_malloc s = .ok (p, s') ∧ p ∉ L ∧ Holds s' (insert p L) := by
  obtain ⟨p, s', e, hp, _⟩ := malloc_spec h.inv
  exact ⟨p, s', e, hp, .malloc h e⟩

/-- Freeing a header that is held succeeds. -/
theorem C110_free (s : Cache) (L : Finset Hdr) (p : Hdr) (h : Holds s L) (hp : p ∈ L) : ∃ s', mzd_t_free p s = .ok s' ∧ Holds s' (L.erase p) := by
  cases p with
  | entry b e =>
    obtain ⟨s', e', _⟩ := free_entry h.inv hp
    exact ⟨s', e', .free h hp e'⟩
  | own q =>
    obtain ⟨s', e', _⟩ := free_own h.inv hp
    exact ⟨s', e', .free h hp e'⟩

/-- The headers that are held lie in memory that is allocated. -/
theorem C110_live (s : Cache) (L : Finset Hdr) (h : Holds s L) : (∀ b e, .entry b e ∈ L → s.blk b ≠ none ∧ e < 64) ∧ ∀ q, .own q ∈ L → s.own q = true := by
  obtain ⟨l, hi, _⟩ := h.inv
  refine ⟨fun b e hm => ?_, fun q hq => (hi.owns q).1 hq⟩
  obtain ⟨x, hx, hb⟩ := (hi.ents b e).1 hm
  refine ⟨by rw [hx]; simp, ?_⟩
  by_contra hc
  rw [BitVec.getLsbD_of_ge _ _ (by omega)] at hb
  exact absurd hb (by simp)

/-- There are at most 16 blocks, and each block but the first has a header that is held. -/
theorem C110_memory (s : Cache) (L : Finset Hdr) (h : Holds s L) :
    ∃ B : Finset Nat, B.card ≤ 16 ∧ (∀ b, s.blk b ≠ none ↔ b ∈ B) ∧ ∀ b ∈ B, b ≠ 0 → ∃ e, .entry b e ∈ L := by
  obtain ⟨l, hi, hne⟩ := h.inv
  refine ⟨(0 :: l).toFinset, ?_, fun b => ?_, fun b hb hb0 => ?_⟩
  · rw [List.toFinset_card_of_nodup hi.nodup]
    have := hi.len
    simp; omega
  · rw [List.mem_toFinset]
    refine ⟨hi.only b, fun hb => ?_⟩
    obtain ⟨x, hx⟩ := seg_mem hi.seg hb
    rw [hx]; simp
  · rw [List.mem_toFinset] at hb
    have hbl : b ∈ l := (List.mem_cons.1 hb).resolve_left hb0
    obtain ⟨x, hx⟩ := seg_mem hi.seg hb
    have hu := hne b hbl x hx
    by_contra hc
    apply hu
    apply BitVec.eq_of_getLsbD_eq
    intro i _
    rw [BitVec.getLsbD_zero]
    cases hb' : x.used.getLsbD i with
    | false => rfl
    | true => exact absurd ⟨i, (hi.ents b i).2 ⟨x, hx, hb'⟩⟩ hc

/-- A program that holds no header has given back all memory: the first block, which is a variable, is all there is. -/
theorem C110_empty (s : Cache) (h : Holds s ∅) : (∀ b, s.blk b ≠ none ↔ b = 0) ∧ ∀ q, s.own q = false := by
  obtain ⟨B, _, hB, hne⟩ := C110_memory s ∅ h
  obtain ⟨l, hi, _⟩ := h.inv
  refine ⟨fun b => ⟨fun hb => ?_, fun hb => ?_⟩, fun q => ?_⟩
  · by_contra hc
    obtain ⟨e, he⟩ := hne b ((hB b).1 hb) hc
    simp at he
  · obtain ⟨x, hx⟩ := seg_mem hi.seg (c := b) (by rw [hb]; simp)
    rw [hx]; simp
  · cases hq : s.own q with
    | false => rfl
    | true => exact absurd ((hi.owns q).2 hq) (by simp)

/-- A header comes from the system only if at least 1024 = 16 · 64 are held. -/
theorem C110_own (s s' : Cache) (L : Finset Hdr) (q : Nat) (h : Holds s L) (e : mzd_t_malloc s = .ok (.own q, s')) : 1024 ≤ L.card := by
  obtain ⟨p, s'', e', _, _, hown⟩ := malloc_spec h.inv
  rw [e] at e'
  obtain ⟨rfl, rfl⟩ : _ = p ∧ _ = s'' := by simpa using e'
  exact hown q rfl

/-- A program that takes two headers and frees the first. -/
example : ∃ s L, Holds s L ∧ .entry 0 62 ∈ L ∧ .entry 0 63 ∉ L := by
  refine ⟨_, _, .free (p := .entry 0 63) (.malloc (p := .entry 0 62) (.malloc (p := .entry 0 63) .start rfl) rfl) ?_ rfl, ?_, ?_⟩ <;> decide

end WB.m4a
