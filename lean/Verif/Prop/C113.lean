import Verif.Proof.M4riFree
import Verif.SpecM4riFree
import Verif.Prop.C111

/-!
# C113: programs that free each matrix once free no memory twice and lose none

`Runs th s l` (`SpecM4riFree.lean`): `s` is a state that a program reaches which calls `mzd_init`, `mzd_init_window`, `mzd_free` and `m4ri_mmc_cleanup` in any order
and frees each matrix and each window at most once; `l` are those that are not freed yet.
-/
namespace WB.m4a

/-- `mzd_free` never fails: each piece of memory is given back once, with the size it was asked for; it makes no difference whether windows are freed before or after
their matrix. -/
theorem C113_free {th : Nat} {s : Mmc} {l l' : List Mat} {A : Mat} (h : Runs th s l) (hA : l.Perm (A :: l')) : ∃ s', mzd_free th A s = .ok s' ∧ Runs th s' l' := by
  obtain ⟨hg, hp⟩ := h.inv
  have hP := hp.perm (hA.flatMap_right owned)
  rw [List.flatMap_cons] at hP
  obtain ⟨s', e, _⟩ := free_spec (hg A (hA.mem_iff.2 List.mem_cons_self)) hP
  exact ⟨s', e, .free h hA e⟩

/-- When all matrices and windows are freed, `m4ri_mmc_cleanup` (which runs when the library is unloaded) gives back all memory. -/
theorem C113_all {th : Nat} {s : Mmc} (h : Runs th s []) : ∃ s', m4ri_mmc_cleanup s = .ok s' ∧ ∀ p, s'.sys.live p = none := by
  obtain ⟨_, L, h1, h2, _⟩ := h.inv
  obtain ⟨s', e, hi, hz⟩ := mmc_cleanup_spec h1.inv
  refine ⟨s', e, fun p => ?_⟩
  cases hp : s'.sys.live p with
  | none => rfl
  | some n =>
    rcases hi.cover p n hp with hc | ⟨i, hi', h0, _⟩
    · have := (h2 p n).1 hc
      simp at this
    · exact absurd (hz i hi') h0

/-- The memory of a matrix with rows and columns that is not freed is allocated: the array of its rows, the array of its blocks, and each block. -/
theorem C113_live {th : Nat} {s : Mmc} {l : List Mat} {A : Mat} (h : Runs th s l) (hA : A ∈ l) :
    (A.rows ≠ 0 → s.sys.live A.rows = some ((A.nrows + 1) * 8)) ∧
      (A.blocks ≠ 0 → A.owns = true → ∃ n, (∀ i < n, (A.ent i).1 ≠ 0 ∧ s.sys.live (A.ent i).2 = some (A.ent i).1) ∧ (A.ent n).1 = 0 ∧ s.sys.live A.blocks = some ((n + 1) * 24)) := by
  obtain ⟨hg, L, h1, h2, _⟩ := h.inv
  have hm : ∀ x ∈ owned A, s.sys.live x.1 = some x.2 := fun x hx => (h1.inv.client x.1 x.2 ((h2 _ _).2 (List.mem_flatMap.2 ⟨A, hA, hx⟩))).1
  constructor
  · intro hr
    exact hm (A.rows, (A.nrows + 1) * 8) (by unfold owned; rw [if_pos hr]; simp)
  · intro hb ho
    obtain ⟨n, hn, b1, b2⟩ := hg A hA ⟨hb, ho⟩
    have e := nblk_eq hn b1 b2
    refine ⟨n, fun i hi => ⟨b1 i hi, ?_⟩, b2, ?_⟩
    · refine hm ((A.ent i).2, (A.ent i).1) ?_
      unfold owned
      rw [if_pos (show A.blocks ≠ 0 ∧ A.owns = true from ⟨hb, ho⟩), e]
      exact List.mem_append_right _ (List.mem_append_left _ (List.mem_map.2 ⟨i, List.mem_range.2 hi, rfl⟩))
    · refine hm (A.blocks, (n + 1) * 24) ?_
      unfold owned
      rw [if_pos (show A.blocks ≠ 0 ∧ A.owns = true from ⟨hb, ho⟩), e]
      simp

theorem mem_rows {A : Mat} (h : A.rows ≠ 0) : A.rows ∈ (owned A).map Prod.fst := by
  refine List.mem_map.2 ⟨(A.rows, (A.nrows + 1) * 8), ?_, rfl⟩
  unfold owned; rw [if_pos h]; simp

theorem mem_block {A : Mat} {i : Nat} (hg : Good A) (hb : A.blocks ≠ 0) (ho : A.owns = true) (hi : ∀ k ≤ i, (A.ent k).1 ≠ 0) : (A.ent i).2 ∈ (owned A).map Prod.fst := by
  obtain ⟨n, hn, b1, b2⟩ := hg ⟨hb, ho⟩
  have hin : i < n := by
    by_contra hc
    exact hi n (by omega) b2
  refine List.mem_map.2 ⟨((A.ent i).2, (A.ent i).1), ?_, rfl⟩
  unfold owned
  rw [if_pos (show A.blocks ≠ 0 ∧ A.owns = true from ⟨hb, ho⟩), nblk_eq hn b1 b2]
  exact List.mem_append_right _ (List.mem_append_left _ (List.mem_map.2 ⟨i, List.mem_range.2 hin, rfl⟩))

/-- Two matrices or windows that are not freed have different arrays of rows, and two matrices have different blocks. -/
theorem C113_apart {th : Nat} {s : Mmc} {l l' : List Mat} {A B : Mat} (h : Runs th s l) (hl : l.Perm (A :: B :: l')) :
    (A.rows ≠ 0 → A.rows ≠ B.rows) ∧ (A.blocks ≠ 0 → A.owns = true → B.blocks ≠ 0 → B.owns = true →
      ∀ i j, (∀ k ≤ i, (A.ent k).1 ≠ 0) → (∀ k ≤ j, (B.ent k).1 ≠ 0) → (A.ent i).2 ≠ (B.ent j).2) := by
  obtain ⟨hg, hp⟩ := h.inv
  obtain ⟨L, _, _, h3⟩ := hp.perm (hl.flatMap_right owned)
  rw [List.flatMap_cons, List.flatMap_cons, List.map_append, List.map_append] at h3
  have hd := List.disjoint_of_nodup_append h3
  constructor
  · intro hA hc
    exact hd (mem_rows hA) (List.mem_append_left _ (hc ▸ mem_rows (hc ▸ hA)))
  · intro a1 a2 b1 b2 i j hi hj hc
    refine hd (mem_block (hg A (hl.mem_iff.2 (by simp))) a1 a2 hi) (List.mem_append_left _ ?_)
    rw [hc]
    exact mem_block (hg B (hl.mem_iff.2 (by simp))) b1 b2 hj

theorem mallocHit {th n i : Nat} {s : Mmc} (ht : n ≤ th) (hf : s.find n = some i) (hd : s.data i ≠ 0) : m4ri_mmc_malloc th n s = (s.data i, s.put i 0 0) := by
  unfold m4ri_mmc_malloc
  rw [if_pos ht, hf]
  simp only []
  rw [if_pos hd]

/-- What goes wrong: a matrix that is freed twice is given back twice, and the next two requests of its size get the same memory. -/
theorem C113_twice_violated (th n : Nat) (h : (n + 1) * 8 < th) : ∃ A s1 s2 s3 s4 s5 p, mzd_init th n 0 .start = (A, s1) ∧ mzd_free th A s1 = .ok s2 ∧ mzd_free th A s2 = .ok s3 ∧
    m4ri_mmc_malloc th ((n + 1) * 8) s3 = (p, s4) ∧ m4ri_mmc_malloc th ((n + 1) * 8) s4 = (p, s5) := by
  obtain ⟨m, hm⟩ : ∃ m, (n + 1) * 8 = m + 1 := ⟨n * 8 + 7, by omega⟩
  let s1 : Mmc := { Mmc.start with sys := ⟨fun p => if p = 1 then some (m + 1) else none, 2⟩ }
  have e1 : m4ri_mmc_malloc th ((n + 1) * 8) .start = (1, s1) := by
    rw [hm]; exact mallocNew fun i _ => (Nat.succ_ne_zero m).symm
  refine ⟨⟨n, 1, 0, true, fun _ => (0, 0)⟩, s1, s1.put 0 (m + 1) 1, (s1.put 0 (m + 1) 1).put 1 (m + 1) 1, ((s1.put 0 (m + 1) 1).put 1 (m + 1) 1).put 0 0 0,
    (((s1.put 0 (m + 1) 1).put 1 (m + 1) 1).put 0 0 0).put 1 0 0, 1, ?_, ?_, ?_, ?_, ?_⟩
  · unfold mzd_init
    rw [e1]
    simp only []
    rw [if_neg (fun hc => hc.2 rfl)]
  · show m4ri_mmc_free th 1 ((n + 1) * 8) s1 >>= _ = _
    rw [hm] at h ⊢
    rw [freeSmall (i := 0) h rfl]; rfl
  · show m4ri_mmc_free th 1 ((n + 1) * 8) (s1.put 0 (m + 1) 1) >>= _ = _
    rw [hm] at h ⊢
    rw [freeSmall (i := 1) h rfl]; rfl
  · rw [hm] at h ⊢
    refine mallocHit (i := 0) h.le ?_ (fun h => absurd (show (1 : Nat) = 0 from h) (by decide))
    show List.find? _ (0 :: List.range' 1 15) = _
    rw [List.find?_cons_of_pos]
    show ((m + 1) == (m + 1)) = true
    simp
  · rw [hm] at h ⊢
    refine mallocHit (i := 1) h.le ?_ (fun h => absurd (show (1 : Nat) = 0 from h) (by decide))
    show List.find? _ (0 :: 1 :: List.range' 2 14) = _
    rw [List.find?_cons_of_neg, List.find?_cons_of_pos]
    · show ((m + 1) == (m + 1)) = true
      simp
    · show ¬(0 == (m + 1)) = true
      simp

theorem ex_log2 : m4l.blockLog (2 ^ 27 / 2) = 26 := by simp [m4l.blockLog]

/-- A matrix of 5 rows and 70 columns and a window of it: one block of 5 rows of 2 words. -/
example : ∃ A W s, Runs 1000000 s [W, A] ∧ (A.ent 0).1 = 5 * 2 * 8 ∧ (A.ent 1).1 = 0 ∧ A.blocks ≠ 0 ∧ W.rows ≠ 0 := by
  have e : mzd_init 1000000 5 70 .start = (⟨5, 1, 2, true, fun k => if k = 0 then (80, 3) else (0, 0)⟩, (mzd_init 1000000 5 70 .start).2) := by
    refine Prod.ext ?_ rfl
    unfold mzd_init
    simp only [show (70 + 63) / 64 = 2 from rfl]
    have e2 : (if 2 < 1 ∨ True then 2 else 2 + 1) = 2 := rfl
    simp only [e2, ex_log2]
    rfl
  have r1 := Runs.init 5 70 .start e
  have r2 := Runs.window 3 0 r1 List.mem_cons_self (Prod.eta _).symm
  refine ⟨_, _, _, r2, rfl, rfl, by decide, ?_⟩
  obtain ⟨p, s', e', hp, _⟩ := r1.inv.2.malloc (n := 32) (by decide)
  unfold mzd_init_window
  simp only []
  rw [if_pos (by decide), e']
  exact hp

end WB.m4a
