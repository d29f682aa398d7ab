import Verif.Proof.M4riFree
import Verif.SpecM4riCodes

/-! # Lemmas for C139 -/
namespace WB.m4a

variable {th : Nat} {s : Mmc} {L : Nat → Option Nat}

/-- The program and the library hold exactly the blocks of a list of addresses and sizes. -/
def LPool (th : Nat) (s : Mmc) (pool : List (Nat × Nat)) : Prop :=
  ∃ L, BInv th s L ∧ (∀ p n, L p = some n ↔ (p, n) ∈ pool) ∧ (pool.map Prod.fst).Nodup

theorem LPool.perm {a b : List (Nat × Nat)} (h : LPool th s a) (hp : a.Perm b) : LPool th s b := by
  obtain ⟨L, h1, h2, h3⟩ := h
  exact ⟨L, h1, fun p n => (h2 p n).trans hp.mem_iff, (hp.map _).nodup_iff.1 h3⟩

theorem pool_add {pool : List (Nat × Nat)} {p n : Nat} (hL : L p = none) (h2 : ∀ q m, L q = some m ↔ (q, m) ∈ pool) (h3 : (pool.map Prod.fst).Nodup) :
    (∀ q m, (if q = p then some n else L q) = some m ↔ (q, m) ∈ (p, n) :: pool) ∧ (((p, n) :: pool).map Prod.fst).Nodup := by
  have hmem : ∀ m, (p, m) ∉ pool := fun m hm => by
    rw [(h2 p m).2 hm] at hL; exact absurd hL (by simp)
  refine ⟨fun q m => ?_, ?_⟩
  · rw [List.mem_cons, Prod.mk.injEq]
    by_cases hq : q = p
    · rw [if_pos hq, hq]
      constructor
      · intro h; exact .inl ⟨rfl, (Option.some.inj h).symm⟩
      · rintro (⟨_, rfl⟩ | h)
        · rfl
        · exact absurd h (hmem m)
    · rw [if_neg hq, h2]
      constructor
      · exact .inr
      · rintro (⟨h, _⟩ | h)
        · exact absurd h hq
        · exact h
  · rw [List.map_cons, List.nodup_cons]
    refine ⟨fun hc => ?_, h3⟩
    obtain ⟨⟨q, m⟩, hm, he⟩ := List.mem_map.1 hc
    have he' : q = p := he
    rw [he'] at hm
    exact hmem m hm

theorem pool_drop {pool : List (Nat × Nat)} {p n : Nat} (h2 : ∀ q m, L q = some m ↔ (q, m) ∈ (p, n) :: pool) (h3 : (((p, n) :: pool).map Prod.fst).Nodup) :
    (∀ q m, (if q = p then none else L q) = some m ↔ (q, m) ∈ pool) ∧ (pool.map Prod.fst).Nodup := by
  rw [List.map_cons, List.nodup_cons] at h3
  refine ⟨fun q m => ?_, h3.2⟩
  by_cases hq : q = p
  · rw [if_pos hq]
    constructor
    · intro h; exact absurd h (by simp)
    · intro h
      exact absurd (List.mem_map.2 ⟨_, h, hq⟩) h3.1
  · rw [if_neg hq, h2, List.mem_cons, Prod.mk.injEq]
    constructor
    · rintro (⟨h, _⟩ | h)
      · exact absurd h hq
      · exact h
    · exact .inr

theorem LPool.malloc {pool : List (Nat × Nat)} (h : LPool th s pool) {n : Nat} (hn : 0 < n) : ∃ p s', m4ri_mmc_malloc th n s = (p, s') ∧ p ≠ 0 ∧ LPool th s' ((p, n) :: pool) := by
  obtain ⟨L, h1, h2, h3⟩ := h
  obtain ⟨p, s', e, hp, hL, hi⟩ := mmc_malloc_spec h1 hn
  exact ⟨p, s', e, hp, _, hi, pool_add hL h2 h3⟩

theorem LPool.free {pool : List (Nat × Nat)} {p n : Nat} (h : LPool th s ((p, n) :: pool)) : ∃ s', m4ri_mmc_free th p n s = .ok s' ∧ LPool th s' pool := by
  obtain ⟨L, h1, h2, h3⟩ := h
  obtain ⟨s', e, hi⟩ := mmc_free_spec h1 ((h2 p n).2 List.mem_cons_self)
  exact ⟨s', e, _, hi, pool_drop h2 h3⟩

theorem LPool.calloc {pool : List (Nat × Nat)} (h : LPool th s pool) {n : Nat} (hn : 0 < n) : ∃ p s', m4ri_mm_calloc n s = (p, s') ∧ p ≠ 0 ∧ LPool th s' ((p, n) :: pool) := by
  obtain ⟨L, h1, h2, h3⟩ := h
  obtain ⟨hL, hi⟩ := sysMalloc_inv h1 hn
  exact ⟨_, _, rfl, by have := h1.next; show s.sys.next ≠ 0; omega, _, hi, pool_add hL h2 h3⟩

/-- A block of the program goes back to the system without the cache. -/
theorem sysFree_inv (h : BInv th s L) {p n : Nat} (hL : L p = some n) :
    BInv th { s with sys := { s.sys with live := fun q => if q = p then none else s.sys.live q } } (fun q => if q = p then none else L q) := by
  have nd : ∀ m < 16, s.size m ≠ 0 → s.data m ≠ p := fun m hm hm0 e => by
    have := (h.slot m hm hm0).2.1
    rw [e, hL] at this; exact absurd this (by simp)
  refine ⟨?_, ?_, h.inj, ?_, ?_, h.next, h.j⟩
  · intro q m hm
    show (if q = p then none else s.sys.live q) = _ ∧ _
    by_cases hq : q = p
    · rw [if_pos hq] at hm; exact absurd hm (by simp)
    · rw [if_neg hq] at hm ⊢; exact h.client q m hm
  · intro i hi h0
    show (if s.data i = p then none else s.sys.live (s.data i)) = _ ∧ (if s.data i = p then none else L (s.data i)) = _ ∧ _
    rw [if_neg (nd i hi h0), if_neg (nd i hi h0)]; exact h.slot i hi h0
  · intro q m hm
    have hm' : (if q = p then none else s.sys.live q) = some m := hm
    by_cases hq : q = p
    · rw [if_pos hq] at hm'; exact absurd hm' (by simp)
    · rw [if_neg hq] at hm' ⊢; exact h.cover q m hm'
  · intro q hq
    have hq' : (if q = p then none else s.sys.live q) ≠ none := hq
    by_cases hqp : q = p
    · rw [if_pos hqp] at hq'; exact absurd rfl hq'
    · rw [if_neg hqp] at hq'; exact h.lt q hq'

theorem LPool.live {pool : List (Nat × Nat)} (h : LPool th s pool) {p n : Nat} (hm : (p, n) ∈ pool) : s.sys.live p = some n ∧ p ≠ 0 := by
  obtain ⟨L, h1, h2, _⟩ := h
  have h := (h1.client p n ((h2 p n).2 hm)).1
  exact ⟨h, by have := (h1.lt p (by rw [h]; simp)).1; omega⟩

theorem LPool.sysFree {pool : List (Nat × Nat)} {p n : Nat} (h : LPool th s ((p, n) :: pool)) : ∃ s', freeSys p s = .ok s' ∧ LPool th s' pool := by
  have hl := h.live List.mem_cons_self
  obtain ⟨L, h1, h2, h3⟩ := h
  refine ⟨_, ?_, _, sysFree_inv h1 ((h2 p n).2 List.mem_cons_self), pool_drop h2 h3⟩
  unfold freeSys
  rw [sysFree_ok hl.1 (by have := hl.2; omega)]
  rfl

theorem LPool.touch {pool : List (Nat × Nat)} (h : LPool th s pool) {p n : Nat} (hm : (p, n) ∈ pool) : touch p s = .ok () := by
  unfold m4a.touch
  rw [if_neg (by rw [(h.live hm).1]; simp)]; rfl

theorem LPool.cleanup {pool : List (Nat × Nat)} (h : LPool th s pool) : ∃ s', m4ri_mmc_cleanup s = .ok s' ∧ LPool th s' pool ∧ ∀ i < 16, s'.size i = 0 := by
  obtain ⟨L, h1, h2, h3⟩ := h
  obtain ⟨s', e, hi, hz⟩ := mmc_cleanup_spec h1
  exact ⟨s', e, ⟨L, hi, h2, h3⟩, hz⟩

/-- Without cached blocks, what is allocated is what is held. -/
theorem LPool.exact {pool : List (Nat × Nat)} (h : LPool th s pool) (hz : ∀ i < 16, s.size i = 0) (p n : Nat) : s.sys.live p = some n ↔ (p, n) ∈ pool := by
  obtain ⟨L, h1, h2, h3⟩ := h
  constructor
  · intro hp
    rcases h1.cover p n hp with hc | ⟨i, hi, h0, _⟩
    · exact (h2 p n).1 hc
    · exact absurd (hz i hi) h0
  · intro hm; exact (h1.client p n ((h2 p n).2 hm)).1

/-! ## The code book -/

/-- The memory of one code -/
def cells (s : Lib) (k : Nat) : List (Nat × Nat) := [(s.inc k, 2 ^ k * 4), (s.ord k, 2 ^ k * 4), (s.code k, 16)]

/-- The memory of the code book -/
def bookPool (s : Lib) : List (Nat × Nat) := if s.book = 0 then [] else (List.range' 1 16).flatMap (cells s) ++ [(s.book, 136)]

theorem buildOne_spec {s : Lib} {pool : List (Nat × Nat)} (h : LPool th s.mmc pool) (k : Nat) :
    LPool th (buildOne s k).mmc (cells (buildOne s k) k ++ pool) ∧ (buildOne s k).book = s.book ∧ ∀ j, j ≠ k → cells (buildOne s k) j = cells s j := by
  obtain ⟨c, m1, e1, _, h1⟩ := h.calloc (show 0 < 16 by decide)
  obtain ⟨o, m2, e2, _, h2⟩ := h1.calloc (show 0 < 2 ^ k * 4 by positivity)
  obtain ⟨i, m3, e3, _, h3⟩ := h2.calloc (show 0 < 2 ^ k * 4 by positivity)
  have e : buildOne s k = ⟨m3, s.book, fun j => if j = k then c else s.code j, fun j => if j = k then o else s.ord j, fun j => if j = k then i else s.inc j⟩ := by
    unfold buildOne
    rw [e1]; dsimp only; rw [e2]; dsimp only; rw [e3]
  rw [e]
  refine ⟨?_, rfl, fun j hj => ?_⟩
  · unfold cells
    dsimp only
    rw [if_pos rfl, if_pos rfl, if_pos rfl]
    exact h3
  · unfold cells
    dsimp only
    rw [if_neg hj, if_neg hj, if_neg hj]

theorem build_spec {s : Lib} {pool : List (Nat × Nat)} (h : LPool th s.mmc pool) (n : Nat) :
    LPool th ((List.range' 1 n).foldl buildOne s).mmc ((List.range' 1 n).flatMap (cells ((List.range' 1 n).foldl buildOne s)) ++ pool) ∧ ((List.range' 1 n).foldl buildOne s).book = s.book := by
  induction n with
  | zero => exact ⟨h, rfl⟩
  | succ n ih =>
    rw [List.range'_concat, List.foldl_append, Nat.one_mul]
    obtain ⟨h1, h2, h3⟩ := buildOne_spec ih.1 (1 + n)
    refine ⟨?_, h2.trans ih.2⟩
    show LPool th (buildOne _ (1 + n)).mmc _
    refine h1.perm ?_
    have e : (List.range' 1 n ++ [1 + n]).flatMap (cells (buildOne ((List.range' 1 n).foldl buildOne s) (1 + n))) =
        (List.range' 1 n).flatMap (cells ((List.range' 1 n).foldl buildOne s)) ++ cells (buildOne ((List.range' 1 n).foldl buildOne s) (1 + n)) (1 + n) := by
      rw [List.flatMap_append, List.flatMap_singleton]
      congr 1
      refine List.flatMap_congr fun j hj => h3 j ?_
      have := (List.mem_range'_1.1 hj).2; omega
    show (_ ++ _ : List (Nat × Nat)).Perm ((List.range' 1 n ++ [1 + n]).flatMap (cells (buildOne ((List.range' 1 n).foldl buildOne s) (1 + n))) ++ pool)
    rw [e, ← List.append_assoc]
    exact List.Perm.append_right _ List.perm_append_comm

theorem codes_init_spec {s : Lib} {l : List (Nat × Nat)} (h : LPool th s.mmc (bookPool s ++ l)) : LPool th (m4ri_init s).mmc (bookPool (m4ri_init s) ++ l) ∧ (m4ri_init s).book ≠ 0 := by
  unfold m4ri_init m4ri_build_all_codes
  by_cases hb : s.book ≠ 0
  · rw [if_pos hb]; exact ⟨h, hb⟩
  · rw [if_neg hb]
    rw [show bookPool s = [] from if_pos (not_not.1 hb), List.nil_append] at h
    obtain ⟨b, m, e, hb0, h1⟩ := h.calloc (show 0 < 17 * 8 by decide)
    rw [e]
    dsimp only
    obtain ⟨h2, h3⟩ := build_spec (s := { s with mmc := m, book := b }) h1 16
    have hne : ((List.range' 1 16).foldl buildOne { s with mmc := m, book := b }).book ≠ 0 := by rw [h3]; exact hb0
    refine ⟨?_, hne⟩
    generalize (List.range' 1 16).foldl buildOne { s with mmc := m, book := b } = t at *
    unfold bookPool
    rw [if_neg hne, h3, List.append_assoc]
    exact h2

theorem freeSys_size {p : Nat} {m m' : Mmc} (e : freeSys p m = .ok m') : m'.size = m.size := by
  unfold freeSys at e
  cases h : m4ri_mm_free p m.sys with
  | error x => rw [h] at e; exact absurd e (by intro hc; cases hc)
  | ok t => rw [h] at e; cases e; rfl

theorem destroyOne_spec {s : Lib} {m : Mmc} {i n : Nat} {pool : List (Nat × Nat)} (h : LPool th m (cells s i ++ pool)) (hb : (s.book, n) ∈ pool) : ∃ m', destroyOne s i m = .ok m' ∧ LPool th m' pool ∧ m'.size = m.size := by
  have h0 : LPool th m ((s.inc i, 2 ^ i * 4) :: (s.ord i, 2 ^ i * 4) :: (s.code i, 16) :: pool) := h
  obtain ⟨m1, e1, h1⟩ := h0.sysFree
  obtain ⟨m2, e2, h2⟩ := h1.sysFree
  obtain ⟨m3, e3, h3⟩ := h2.sysFree
  refine ⟨m3, ?_, h3, (freeSys_size e3).trans ((freeSys_size e2).trans (freeSys_size e1))⟩
  unfold destroyOne
  rw [h0.touch (show (s.book, n) ∈ _ by simp [hb]), C_ok_bind, h0.touch (show (s.code i, 16) ∈ _ by simp), C_ok_bind, e1, C_ok_bind, h1.touch (show (s.code i, 16) ∈ _ by simp), C_ok_bind, e2, C_ok_bind, e3]

theorem destroy_spec {s : Lib} {l : List (Nat × Nat)} (h : LPool th s.mmc (bookPool s ++ l)) : ∃ s', m4ri_destroy_all_codes s = .ok s' ∧ LPool th s'.mmc l ∧ s'.book = 0 ∧ s'.mmc.size = s.mmc.size := by
  unfold m4ri_destroy_all_codes
  by_cases hb : s.book = 0
  · rw [if_pos hb]
    rw [show bookPool s = [] from if_pos hb, List.nil_append] at h
    exact ⟨s, rfl, h, hb, rfl⟩
  · rw [if_neg hb]
    rw [show bookPool s = (List.range' 1 16).flatMap (cells s) ++ [(s.book, 136)] from if_neg hb, List.append_assoc] at h
    have loop : Ok (forUp 1 17 s.mmc fun i m => destroyOne s i m) fun m => LPool th m ((s.book, 136) :: l) ∧ m.size = s.mmc.size := by
      refine Ok.forUp (P := fun i m => LPool th m ((List.range' i (17 - i)).flatMap (cells s) ++ ((s.book, 136) :: l)) ∧ m.size = s.mmc.size) (by decide) ⟨h, rfl⟩ ?_ (fun m hm => hm)
      intro i m _ hi ⟨hm, hz⟩
      rw [show 17 - i = (17 - (i + 1)) + 1 by omega, List.range'_succ, List.flatMap_cons, List.append_assoc] at hm
      obtain ⟨m', e, h1, h2⟩ := destroyOne_spec hm (n := 136) (by simp)
      exact ⟨m', e, h1, h2.trans hz⟩
    obtain ⟨m, e, hm, hz⟩ := loop
    obtain ⟨m', e', hm'⟩ := hm.sysFree
    rw [e, C_ok_bind, e', C_ok_bind]
    exact ⟨_, rfl, hm', rfl, (freeSys_size e').trans hz⟩

theorem fini_spec {s : Lib} {l : List (Nat × Nat)} (h : LPool th s.mmc (bookPool s ++ l)) : ∃ s', m4ri_fini s = .ok s' ∧ LPool th s'.mmc l ∧ s'.book = 0 ∧ ∀ i < 16, s'.mmc.size i = 0 := by
  obtain ⟨m, e, h1, hz⟩ := h.cleanup
  obtain ⟨s', e', h2, hb, hs⟩ := destroy_spec (s := { s with mmc := m }) h1
  refine ⟨s', ?_, h2, hb, fun i hi => by rw [hs]; exact hz i hi⟩
  unfold m4ri_fini
  rw [e, C_ok_bind, e']

theorem start_pool : LPool th Mmc.start [] :=
  ⟨fun _ => none, HoldsB.start.inv, fun p n => by simp, by simp⟩

theorem LibRuns.inv {s : Lib} {l : List (Nat × Nat)} (h : LibRuns th s l) : LPool th s.mmc (bookPool s ++ l) := by
  induction h with
  | start => exact start_pool
  | init _ ih => exact (codes_init_spec ih).1
  | fini _ e ih =>
    obtain ⟨s', e', h1, hb, _⟩ := fini_spec ih
    rw [e] at e'
    obtain rfl := Except.ok.inj e'
    rw [show bookPool _ = [] from if_pos hb]
    exact h1
  | @malloc s l n p m _ hn e ih =>
    obtain ⟨p', m', e', _, h1⟩ := ih.malloc hn
    rw [e] at e'
    obtain ⟨rfl, rfl⟩ : p = p' ∧ m = m' := by simpa using e'
    exact h1.perm List.perm_middle.symm
  | @free s l l' p n m _ hp e ih =>
    obtain ⟨m', e', h1⟩ := (ih.perm ((hp.append_left (bookPool s)).trans List.perm_middle)).free
    rw [e] at e'
    obtain rfl := Except.ok.inj e'
    exact h1

end WB.m4a
