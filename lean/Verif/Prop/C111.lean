import Verif.Proof.M4riAlloc
import Verif.SpecM4riAlloc
import Mathlib.Tactic.IntervalCases

/-!
# C111: M4RI's cache of blocks of memory gives out blocks of the right size, never one twice, and `m4ri_mmc_cleanup` gives back all that is not held

`HoldsB th s L` (`SpecM4riAlloc.lean`): `s` is a state that a program reaches which calls `m4ri_mmc_malloc`, `m4ri_mmc_free` and `m4ri_mmc_cleanup` in any
order and as often as it likes, asks only for blocks that are not empty, and frees only blocks that it holds, with the size that it asked for; `L p` is the
size of the block at `p` if the program holds it.  `th` is the threshold, the size of the processor's third cache.
-/
namespace WB.m4a

/-- `m4ri_mmc_malloc` returns a block that is allocated, has exactly the size asked for and is not held. -/
theorem C111_malloc (th n : Nat) (s : Mmc) (L : Nat → Option Nat) (h : HoldsB th s L) (hn : 0 < n) :
    ∃ p s', m4ri_mmc_malloc th n s = (p, s') ∧ p ≠ 0 ∧ L p = none ∧ s'.sys.live p = some n ∧ HoldsB th s' (fun q => if q = p then some n else L q) := by
  obtain ⟨p, s', e, hp, hL, hi⟩ := mmc_malloc_spec h.inv hn
  exact ⟨p, s', e, hp, hL, (hi.client p n (if_pos rfl)).1, .malloc h hn e⟩

/-- `m4ri_mmc_free` never frees a block twice. -/
theorem C111_free (th p n : Nat) (s : Mmc) (L : Nat → Option Nat) (h : HoldsB th s L) (hp : L p = some n) :
    ∃ s', m4ri_mmc_free th p n s = .ok s' ∧ HoldsB th s' (fun q => if q = p then none else L q) := by
  obtain ⟨s', e, _⟩ := mmc_free_spec h.inv hp
  exact ⟨s', e, .free h hp e⟩

/-- All blocks that are held are allocated, with the size that was asked for. -/
theorem C111_live (th p n : Nat) (s : Mmc) (L : Nat → Option Nat) (h : HoldsB th s L) (hp : L p = some n) : s.sys.live p = some n := (h.inv.client p n hp).1

/-- `m4ri_mmc_cleanup` frees no block twice, and after it exactly the blocks that are held are allocated. -/
theorem C111_cleanup (th : Nat) (s : Mmc) (L : Nat → Option Nat) (h : HoldsB th s L) : ∃ s', m4ri_mmc_cleanup s = .ok s' ∧ s'.sys.live = L ∧ HoldsB th s' L := by
  obtain ⟨s', e, hi, hz⟩ := mmc_cleanup_spec h.inv
  refine ⟨s', e, ?_, .cleanup h e⟩
  funext p
  cases hL : L p with
  | some n => exact (hi.client p n hL).1
  | none =>
    cases hp : s'.sys.live p with
    | none => rfl
    | some n =>
      rcases hi.cover p n hp with hc | ⟨i, hi', h0, _⟩
      · rw [hL] at hc; exact absurd hc (by simp)
      · exact absurd (hz i hi') h0

/-- The cache keeps at most 16 blocks that are not held, each smaller than the threshold. -/
theorem C111_bound (th : Nat) (s : Mmc) (L : Nat → Option Nat) (h : HoldsB th s L) :
    ∃ F : Finset Nat, F.card ≤ 16 ∧ ∀ p n, s.sys.live p = some n → L p = none → p ∈ F ∧ n < th := by
  have hi := h.inv
  refine ⟨(Finset.range 16).image s.data, (Finset.card_image_le).trans (by simp), fun p n hp hL => ?_⟩
  rcases hi.cover p n hp with hc | ⟨i, hi', h0, hd⟩
  · rw [hL] at hc; exact absurd hc (by simp)
  · refine ⟨Finset.mem_image.2 ⟨i, Finset.mem_range.2 hi', hd⟩, ?_⟩
    have hs := hi.slot i hi' h0
    rw [hd, hp] at hs
    have := Option.some.inj hs.1
    have := hs.2.2
    omega

/-- A block that has just been freed, if smaller than the threshold, serves the next request of that size without the system. -/
theorem C111_reuse (th p n : Nat) (s s' : Mmc) (L : Nat → Option Nat) (h : HoldsB th s L) (hp : L p = some n) (hn : n < th) (e : m4ri_mmc_free th p n s = .ok s') :
    (m4ri_mmc_malloc th n s').2.sys = s'.sys := by
  have hpos := (h.inv.client p n hp).2
  obtain ⟨s'', e'', hi⟩ := mmc_free_spec h.inv hp
  rw [e] at e''
  obtain rfl : s' = s'' := by simpa using e''
  have hex : ∃ i < 16, s'.size i = n := by
    unfold m4ri_mmc_free at e
    rw [if_pos hn] at e
    cases hf : s.find 0 with
    | some i =>
      rw [hf] at e
      obtain rfl : s.put i n p = s' := by simpa [pure, Except.pure] using e
      exact ⟨i, (find_some hf).1, if_pos rfl⟩
    | none =>
      rw [hf] at e
      have h0 := find_none hf s.j h.inv.j
      have hs := h.inv.slot s.j h.inv.j h0
      have hpos := h.inv.lt (s.data s.j) (by rw [hs.1]; simp)
      simp only [] at e
      rw [sysFree_ok hs.1 hpos.1, C_ok_bind] at e
      have := Except.ok.inj e
      rw [← this]
      exact ⟨s.j, h.inv.j, if_pos rfl⟩
  unfold m4ri_mmc_malloc
  rw [if_pos hn.le]
  cases hf : s'.find n with
  | none =>
    obtain ⟨i, hi', hin⟩ := hex
    exact absurd hin (find_none hf i hi')
  | some i =>
    obtain ⟨hi', hsz⟩ := find_some hf
    have hs := hi.slot i hi' (by omega)
    have := hi.lt (s'.data i) (by rw [hs.1]; simp)
    simp only []
    rw [if_pos (by omega)]
    rfl

/-- A program that takes two blocks of 8 and 24 bytes and frees the first. -/
example : ∃ s L, HoldsB 100 s L ∧ L 2 = some 24 ∧ L 1 = none ∧ s.sys.live 1 = some 8 := by
  refine ⟨_, _, .free (n := 8) (p := 1) (.malloc (n := 24) (.malloc (n := 8) .start (by decide) rfl) (by decide) rfl) ?_ rfl, ?_, ?_, ?_⟩ <;> rfl

theorem freeSmall {th p n i : Nat} {s : Mmc} (h : n < th) (hf : s.find 0 = some i) : m4ri_mmc_free th p n s = .ok (s.put i n p) := by
  unfold m4ri_mmc_free; rw [if_pos h, hf]; rfl

theorem mallocNew {th n : Nat} {s : Mmc} (hf : ∀ i < 16, s.size i ≠ n) :
    m4ri_mmc_malloc th n s = (s.sys.next, { s with sys := ⟨fun p => if p = s.sys.next then some n else s.sys.live p, s.sys.next + 1⟩ }) := by
  have hn : s.find n = none := List.find?_eq_none.2 fun i hi => by simpa using hf i (List.mem_range.1 hi)
  unfold m4ri_mmc_malloc
  rw [hn]
  simp only [ite_self]
  rfl

theorem mallocZero {th i : Nat} {s : Mmc} (hf : s.find 0 = some i) :
    m4ri_mmc_malloc th 0 s = if s.data i ≠ 0 then (s.data i, s.put i 0 0) else (s.sys.next, { s.put i 0 0 with sys := ⟨fun p => if p = s.sys.next then some 0 else s.sys.live p, s.sys.next + 1⟩ }) := by
  unfold m4ri_mmc_malloc
  rw [if_pos (Nat.zero_le _), hf]
  rfl

/-- A request for 0 bytes after `m4ri_mmc_cleanup` returns a block that has been given back to the system: handing it to `m4ri_mm_free` frees it twice. -/
theorem C111_zero_violated (th n : Nat) (hn : 0 < n) (ht : n < th) : ∃ s1 s2 s3 s4 p,
    m4ri_mmc_malloc th n .start = (p, s1) ∧ m4ri_mmc_free th p n s1 = .ok s2 ∧ m4ri_mmc_cleanup s2 = .ok s3 ∧ m4ri_mmc_malloc th 0 s3 = (p, s4) ∧
      s4.sys.live p = none ∧ m4ri_mm_free p s4.sys = .error .oob := by
  obtain ⟨m, rfl⟩ : ∃ m, n = m + 1 := ⟨n - 1, by omega⟩
  refine ⟨_, _, _, _, 1, mallocNew fun i _ => (Nat.succ_ne_zero m).symm, freeSmall ht (i := 0) rfl, rfl, mallocZero (i := 0) rfl, rfl, rfl⟩

/-- A block of 0 bytes that is freed is lost when the next block is freed: `m4ri_mmc_cleanup` does not give it back. -/
theorem C111_leak_violated (th n : Nat) (hn : 0 < n) (ht : n < th) : ∃ s1 s2 s3 s4 s5 p q,
    m4ri_mmc_malloc th 0 .start = (p, s1) ∧ m4ri_mmc_malloc th n s1 = (q, s2) ∧ m4ri_mmc_free th p 0 s2 = .ok s3 ∧ m4ri_mmc_free th q n s3 = .ok s4 ∧
      m4ri_mmc_cleanup s4 = .ok s5 ∧ s5.sys.live p = some 0 ∧ ∀ i < 16, s5.size i = 0 ∧ s5.data i ≠ p := by
  obtain ⟨m, rfl⟩ : ∃ m, n = m + 1 := ⟨n - 1, by omega⟩
  refine ⟨_, _, _, _, _, 1, 2, (mallocZero (i := 0) rfl).trans (if_neg fun h => h rfl), mallocNew fun i _ h => ?_, freeSmall (by omega) (i := 0) rfl, freeSmall ht (i := 0) rfl, rfl, rfl, fun i hi => ?_⟩
  · have h' : (if i = 0 then 0 else 0) = m + 1 := h
    rw [ite_self] at h'; omega
  · interval_cases i <;>
      first
      | exact ⟨rfl, fun h => absurd (show (2 : Nat) = 1 from h) (by decide)⟩
      | exact ⟨rfl, fun h => absurd (show (0 : Nat) = 1 from h) (by decide)⟩

example : 8 < 262144 := by decide

end WB.m4a
