import Mathlib.Data.List.Perm.Basic
import Mathlib.Data.List.Perm.Subperm
import Verif.Proof.M4riAlloc
import Verif.Proof.M4riLayout
import Verif.SpecM4riFree

/-! # Lemmas for C113 -/
namespace WB.m4a

variable {th : Nat} {s : Mmc}

/-- The program holds exactly the blocks of a list of addresses and sizes. -/
def Pool (th : Nat) (s : Mmc) (pool : List (Nat × Nat)) : Prop :=
  ∃ L, HoldsB th s L ∧ (∀ p n, L p = some n ↔ (p, n) ∈ pool) ∧ (pool.map Prod.fst).Nodup

theorem Pool.perm {a b : List (Nat × Nat)} (h : Pool th s a) (hp : a.Perm b) : Pool th s b := by
  obtain ⟨L, h1, h2, h3⟩ := h
  exact ⟨L, h1, fun p n => (h2 p n).trans hp.mem_iff, (hp.map _).nodup_iff.1 h3⟩

theorem Pool.malloc {pool : List (Nat × Nat)} (h : Pool th s pool) {n : Nat} (hn : 0 < n) : ∃ p s', m4ri_mmc_malloc th n s = (p, s') ∧ p ≠ 0 ∧ Pool th s' ((p, n) :: pool) := by
  obtain ⟨L, h1, h2, h3⟩ := h
  obtain ⟨p, s', e, hp, hL, _⟩ := mmc_malloc_spec h1.inv hn
  have hmem : ∀ m, (p, m) ∉ pool := fun m hm => by
    rw [(h2 p m).2 hm] at hL; exact absurd hL (by simp)
  refine ⟨p, s', e, hp, _, .malloc h1 hn e, fun q m => ?_, ?_⟩
  · rw [List.mem_cons, Prod.mk.injEq]
    by_cases hq : q = p
    · rw [if_pos hq, hq]
      constructor
      · intro h; exact .inl ⟨rfl, (Option.some.inj h).symm⟩
      · rintro (⟨_, rfl⟩ | h)
        · rfl
        · exact absurd h (hmem m)
    · rw [if_neg hq, h2]
      constructor
      · exact .inr
      · rintro (⟨h, _⟩ | h)
        · exact absurd h hq
        · exact h
  · rw [List.map_cons, List.nodup_cons]
    refine ⟨fun hc => ?_, h3⟩
    obtain ⟨⟨q, m⟩, hm, he⟩ := List.mem_map.1 hc
    have he' : q = p := he
    rw [he'] at hm
    exact hmem m hm

theorem Pool.free {pool : List (Nat × Nat)} {p n : Nat} (h : Pool th s ((p, n) :: pool)) : ∃ s', m4ri_mmc_free th p n s = .ok s' ∧ Pool th s' pool := by
  obtain ⟨L, h1, h2, h3⟩ := h
  obtain ⟨s', e, _⟩ := mmc_free_spec h1.inv ((h2 p n).2 List.mem_cons_self)
  rw [List.map_cons, List.nodup_cons] at h3
  refine ⟨s', e, _, .free h1 ((h2 p n).2 List.mem_cons_self) e, fun q m => ?_, h3.2⟩
  by_cases hq : q = p
  · rw [if_pos hq]
    constructor
    · intro h; exact absurd h (by simp)
    · intro h
      exact absurd (List.mem_map.2 ⟨_, h, hq⟩) h3.1
  · rw [if_neg hq, h2, List.mem_cons, Prod.mk.injEq]
    constructor
    · rintro (⟨h, _⟩ | h)
      · exact absurd h hq
      · exact h
    · exact .inr

theorem Pool.cleanup {pool : List (Nat × Nat)} (h : Pool th s pool) : ∃ s', m4ri_mmc_cleanup s = .ok s' ∧ Pool th s' pool := by
  obtain ⟨L, h1, h2, h3⟩ := h
  obtain ⟨s', e, _⟩ := mmc_cleanup_spec h1.inv
  exact ⟨s', e, L, .cleanup h1 e, h2, h3⟩

/-- The number of blocks of a matrix, as `mzd_free` counts them -/
def nblk (A : Mat) : Nat := ((List.range (A.nrows + 1)).takeWhile fun i => decide ((A.ent i).1 ≠ 0)).length

/-- The memory of a matrix -/
def owned (A : Mat) : List (Nat × Nat) :=
  (if A.rows ≠ 0 then [(A.rows, (A.nrows + 1) * 8)] else []) ++
    if A.blocks ≠ 0 ∧ A.owns = true then (List.range (nblk A)).map (fun i => ((A.ent i).2, (A.ent i).1)) ++ [(A.blocks, (nblk A + 1) * 24)] else []

/-- The array of blocks ends in an entry of size 0. -/
def Good (A : Mat) : Prop := A.blocks ≠ 0 ∧ A.owns = true → ∃ n ≤ A.nrows, (∀ i < n, (A.ent i).1 ≠ 0) ∧ (A.ent n).1 = 0

theorem nblk_eq {A : Mat} {n : Nat} (hn : n ≤ A.nrows) (h1 : ∀ i < n, (A.ent i).1 ≠ 0) (h2 : (A.ent n).1 = 0) : nblk A = n := by
  unfold nblk
  have e : List.range (A.nrows + 1) = List.range n ++ n :: (List.range' (n + 1) (A.nrows - n)) := by
    rw [List.range_eq_range', List.range_eq_range', show A.nrows + 1 = n + (A.nrows - n + 1) by omega, ← List.range'_append_1]
    simp [List.range'_succ]
  rw [e, List.takeWhile_append_of_pos, List.takeWhile_cons_of_neg]
  · simp
  · simpa using h2
  · intro i hi
    simpa using h1 i (List.mem_range.1 hi)

theorem freeBlocks_spec {A : Mat} {n : Nat} (h1 : ∀ i < n, (A.ent i).1 ≠ 0) (h2 : (A.ent n).1 = 0) {rest : List (Nat × Nat)} : ∀ {fuel i : Nat} {s : Mmc}, i ≤ n → n < fuel + i →
    Pool th s ((List.range' i (n - i)).map (fun i => ((A.ent i).2, (A.ent i).1)) ++ rest) → ∃ s', freeBlocks th A fuel i s = .ok (n, s') ∧ Pool th s' rest := by
  intro fuel
  induction fuel with
  | zero => intro i s hi hf _; omega
  | succ fuel ih =>
    intro i s hi hf hp
    unfold freeBlocks
    by_cases hin : i = n
    · rw [hin, if_neg (not_not.2 h2)]
      rw [hin, Nat.sub_self] at hp
      exact ⟨s, rfl, hp⟩
    · rw [if_pos (h1 i (by omega))]
      rw [show n - i = (n - (i + 1)) + 1 by omega, List.range'_succ] at hp
      obtain ⟨s', e, hp'⟩ := Pool.free hp
      rw [e, C_ok_bind]
      exact ih (by omega) (by omega) hp'

theorem initBlocks_spec {full : Nat} (hf : 0 < full) {rest : List (Nat × Nat)} : ∀ {n words : Nat} {ent : Nat → Nat × Nat} {s : Mmc}, 0 < words → Pool th s rest →
    ∃ ent' s', initBlocks th full n words ent s = (ent', s') ∧ (∀ i < n, (ent' i).1 ≠ 0) ∧ (∀ i, n ≤ i → ent' i = ent i) ∧
      Pool th s' ((List.range n).map (fun i => ((ent' i).2, (ent' i).1)) ++ rest) := by
  intro n
  induction n generalizing rest with
  | zero => intro words ent s _ hp; exact ⟨ent, s, rfl, fun i hi => by omega, fun _ _ => rfl, hp⟩
  | succ n ih =>
    intro words ent s hw hp
    obtain ⟨p, s1, e, _, hp1⟩ := hp.malloc (n := words * 8) (by omega)
    obtain ⟨ent', s', e', h1, h2, h3⟩ := ih (words := full) (ent := fun k => if k = n then (words * 8, p) else ent k) hf hp1
    have hn : ent' n = (words * 8, p) := (h2 n le_rfl).trans (if_pos rfl)
    refine ⟨ent', s', ?_, fun i hi => ?_, fun i hi => ?_, ?_⟩
    · unfold initBlocks
      rw [e]; exact e'
    · by_cases hin : i = n
      · rw [hin, hn]; show words * 8 ≠ 0; omega
      · exact h1 i (by omega)
    · rw [h2 i (by omega), if_neg (by omega)]
    · rw [List.range_succ, List.map_append, List.append_assoc]
      simpa [hn] using h3

theorem init_spec {rest : List (Nat × Nat)} (h : Pool th s rest) (r c : Nat) : ∃ A s', mzd_init th r c s = (A, s') ∧ Good A ∧ Pool th s' (owned A ++ rest) := by
  obtain ⟨p, s1, e1, hp, h1⟩ := h.malloc (n := (r + 1) * 8) (by omega)
  unfold mzd_init
  rw [e1]
  simp only []
  by_cases hrc : r ≠ 0 ∧ c ≠ 0
  · rw [if_pos hrc]
    generalize hst : (if (c + 63) / 64 < 1 ∨ (c + 63) / 64 % 2 = 0 then (c + 63) / 64 else (c + 63) / 64 + 1) = stride
    have hs : 0 < stride := by rw [← hst]; split <;> omega
    generalize m4l.blockLog (2 ^ 27 / stride) = bl
    have hB : 0 < 2 ^ bl := Nat.pos_of_ne_zero (by positivity)
    generalize 2 ^ bl = B at hB
    generalize hn : (r + B - 1) / B = n
    have a1 : n * B ≤ r + B - 1 := by rw [← hn]; exact Nat.div_mul_le_self _ _
    have a2 : r + B - 1 < (n + 1) * B := by rw [← hn]; exact Nat.lt_mul_of_div_lt (Nat.lt_succ_self _) hB
    rw [Nat.succ_mul] at a2
    have a3 : (n - 1) * B = n * B - B := by rw [Nat.sub_mul, Nat.one_mul]
    have a4 : 0 < r - (n - 1) * B := by omega
    have a5 : n ≤ r := by
      by_contra hc
      have : (r + 1) * B ≤ n * B := Nat.mul_le_mul_right _ (by omega)
      rw [Nat.succ_mul] at this
      have : r ≤ r * B := Nat.le_mul_of_pos_right _ hB
      omega
    obtain ⟨q, s2, e2, hq, h2⟩ := h1.malloc (n := (n + 1) * 24) (by omega)
    rw [e2]
    simp only []
    obtain ⟨ent, s3, e3, b1, b2, h3⟩ := initBlocks_spec (full := B * stride) (Nat.mul_pos hB hs) (n := n) (words := (r - (n - 1) * B) * stride) (ent := fun _ => (0, 0)) (Nat.mul_pos a4 hs) h2
    rw [e3]
    have b3 : (ent n).1 = 0 := by rw [b2 n le_rfl]
    refine ⟨_, _, rfl, fun _ => ⟨n, a5, b1, b3⟩, ?_⟩
    have hnb : nblk ⟨r, p, q, true, ent⟩ = n := nblk_eq a5 b1 b3
    unfold owned
    rw [hnb, if_pos hp, if_pos ⟨hq, rfl⟩]
    refine h3.perm ?_
    simp only [List.append_assoc, List.cons_append, List.nil_append]
    refine List.perm_middle.trans ?_
    refine (List.Perm.trans ?_ (List.perm_middle (l₁ := (p, (r + 1) * 8) :: List.map (fun i => ((ent i).2, (ent i).1)) (List.range n))).symm)
    refine List.Perm.cons _ ?_
    exact List.perm_middle
  · rw [if_neg hrc]
    refine ⟨_, _, rfl, fun hc => absurd rfl hc.1, ?_⟩
    unfold owned
    rw [if_pos hp, if_neg (fun hc => hc.1 rfl)]
    exact h1

theorem window_spec {rest : List (Nat × Nat)} (h : Pool th s rest) (n k : Nat) (M : Mat) : ∃ W s', mzd_init_window th n k M s = (W, s') ∧ Good W ∧ Pool th s' (owned W ++ rest) := by
  unfold mzd_init_window
  simp only []
  by_cases hn : n ≠ 0
  · rw [if_pos hn]
    obtain ⟨p, s1, e1, hp, h1⟩ := h.malloc (n := (n + 1) * 8) (by omega)
    rw [e1]
    refine ⟨_, _, rfl, fun hc => absurd hc.2 (by simp), ?_⟩
    unfold owned
    rw [if_pos hp, if_neg (fun hc => absurd hc.2 (by simp))]
    exact h1
  · rw [if_neg hn]
    refine ⟨_, _, rfl, fun hc => absurd hc.2 (by simp), ?_⟩
    unfold owned
    rw [if_neg (not_not.2 rfl), if_neg (fun hc => absurd hc.2 (by simp))]
    exact h

theorem free_spec {rest : List (Nat × Nat)} {A : Mat} (hg : Good A) (h : Pool th s (owned A ++ rest)) : ∃ s', mzd_free th A s = .ok s' ∧ Pool th s' rest := by
  unfold owned at h
  have h1 : ∃ s1, (if A.rows ≠ 0 then m4ri_mmc_free th A.rows ((A.nrows + 1) * 8) s else pure s) = .ok s1 ∧
      Pool th s1 ((if A.blocks ≠ 0 ∧ A.owns = true then (List.range (nblk A)).map (fun i => ((A.ent i).2, (A.ent i).1)) ++ [(A.blocks, (nblk A + 1) * 24)] else []) ++ rest) := by
    by_cases hr : A.rows ≠ 0
    · rw [if_pos hr] at h ⊢
      exact Pool.free h
    · rw [if_neg hr] at h ⊢
      exact ⟨s, rfl, h⟩
  obtain ⟨s1, e1, h1⟩ := h1
  unfold mzd_free
  rw [e1, C_ok_bind]
  by_cases hb : A.blocks ≠ 0 ∧ A.owns = true
  · rw [if_pos hb] at h1 ⊢
    obtain ⟨n, hn, b1, b2⟩ := hg hb
    rw [nblk_eq hn b1 b2, List.range_eq_range', List.append_assoc] at h1
    obtain ⟨s2, e2, h2⟩ := freeBlocks_spec b1 b2 (fuel := A.nrows + 1) (i := 0) (Nat.zero_le _) (by omega) h1
    rw [e2, C_ok_bind]
    exact Pool.free h2
  · rw [if_neg hb] at h1 ⊢
    exact ⟨s1, rfl, h1⟩

theorem Runs.inv {l : List Mat} (h : Runs th s l) : (∀ A ∈ l, Good A) ∧ Pool th s (l.flatMap owned) := by
  induction h with
  | start => exact ⟨fun A hA => by simp at hA, _, .start, fun p n => by simp, by simp⟩
  | init r c _ e ih =>
    obtain ⟨A, s', e', hg, hp⟩ := init_spec ih.2 r c
    rw [e] at e'
    obtain ⟨rfl, rfl⟩ : _ = A ∧ _ = s' := by simpa using e'
    refine ⟨fun B hB => ?_, by rw [List.flatMap_cons]; exact hp⟩
    rcases List.mem_cons.1 hB with rfl | hB
    · exact hg
    · exact ih.1 B hB
  | @window _ _ _ M _ n k _ _ e ih =>
    obtain ⟨A, s', e', hg, hp⟩ := window_spec ih.2 n k M
    rw [e] at e'
    obtain ⟨rfl, rfl⟩ : _ = A ∧ _ = s' := by simpa using e'
    refine ⟨fun B hB => ?_, by rw [List.flatMap_cons]; exact hp⟩
    rcases List.mem_cons.1 hB with rfl | hB
    · exact hg
    · exact ih.1 B hB
  | free _ hp e ih =>
    have hP := ih.2.perm (hp.flatMap_right owned)
    rw [List.flatMap_cons] at hP
    obtain ⟨s', e', h'⟩ := free_spec (ih.1 _ (hp.mem_iff.2 List.mem_cons_self)) hP
    rw [e] at e'
    obtain rfl := Except.ok.inj e'
    exact ⟨fun B hB => ih.1 B (hp.mem_iff.2 (List.mem_cons_of_mem _ hB)), h'⟩
  | cleanup _ e ih =>
    obtain ⟨s', e', h'⟩ := ih.2.cleanup
    rw [e] at e'
    obtain rfl := Except.ok.inj e'
    exact ⟨ih.1, h'⟩

end WB.m4a
