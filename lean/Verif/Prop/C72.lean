import Verif.Prop.C71

/-!
# C72 — the memory of the M4RI based SM4 demo
-/
namespace WB.m4ri
open SM4

variable {lib : M4ri} {s s' : Heap}

/-- The addresses of matrices stored in an affine transform. -/
def addrs (a : AffineTransform) : List Nat := [a.linear_map, a.vector_translation]

/-- All addresses of matrices that the global variables and the table object hold. -/
def pointers (g : sm4.Globals) (c : sm4.Sm4Whitebox) : List Nat :=
  (g.P.toList.flatMap fun r => r.toList.flatMap addrs) ++
  (g.E.toList.flatMap fun r => r.toList.flatMap fun q => q.toList.flatMap addrs) ++
  (g.Q.toList.flatMap fun r => r.toList.flatMap addrs) ++
  (c.M.toList.flatMap fun r => r.toList.flatMap addrs) ++
  c.C.toList.flatMap addrs ++ c.D.toList.flatMap addrs ++ c.SE.toList.flatMap addrs ++ c.FE.toList.flatMap addrs

theorem length_flatMap_const {α β : Type} (f : α → List β) (k : Nat) (hf : ∀ a, (f a).length = k) (l : List α) :
    (l.flatMap f).length = l.length * k := by
  induction l with
  | nil => simp
  | cons a l ih => rw [List.flatMap_cons, List.length_append, hf, ih, List.length_cons, Nat.succ_mul, Nat.add_comm]

theorem length_addrs {n : Nat} (v : Vector AffineTransform n) : (v.toList.flatMap addrs).length = n * 2 := by
  rw [length_flatMap_const addrs 2 (fun _ => rfl), Vector.length_toList]

theorem length_pointers (g : sm4.Globals) (c : sm4.Sm4Whitebox) : (pointers g c).length = 1344 := by
  unfold pointers
  simp only [List.length_append]
  rw [length_flatMap_const _ (2 * 2) (fun r => length_addrs r), length_flatMap_const _ (2 * 2) (fun r => length_addrs r),
    length_flatMap_const _ (3 * 2) (fun r => length_addrs r),
    length_flatMap_const _ (5 * (2 * 2)) (fun r => by
      rw [length_flatMap_const _ (2 * 2) (fun q => length_addrs q), Vector.length_toList])]
  simp only [length_addrs, Vector.length_toList]

/-- C72: a call of `sm4_wb_gen_tables` that returns leaves 1344 matrices more on the heap than before; every matrix that was
there before is still there and unchanged; nothing is printed. -/
theorem C72_gen_tables (hl : lib.Ok) (hs : s.Ok) {fuel : Nat} {env : Env} {key : Vector (BitVec 8) 16} {g g' : sm4.Globals}
    {ctx ctx' : sm4.Sm4Whitebox} (h : sm4.sm4_wb_gen_tables lib fuel env key g ctx s = .ok ((g', ctx'), s')) :
    s'.live = s.live + 1344 ∧ Keeps s s' ∧ s'.out = s.out ∧ s'.Ok := by
  rcases sm4.gen_tables_run hl fuel (Own.empty hs) env key g ctx with ⟨-, e⟩ | ⟨r, s1, e, x, -⟩
  · rw [h] at e; cases e
  · rw [h] at e
    cases e
    exact ⟨by have := x.live; simpa using this, fun p m hp => (x.keep p m hp (by simp)).1, x.out, x.own.ok⟩

/-- C72: an encryption leaves the heap as it was; the number of live matrices is the same. -/
theorem C72_enc (hl : lib.Ok) (hs : s.Ok) {fuel : Nat} {env : Env} {key : Vector (BitVec 8) 16} {g g' : sm4.Globals}
    {ctx ctx' : sm4.Sm4Whitebox} (h : sm4.sm4_wb_gen_tables lib fuel env key g ctx s = .ok ((g', ctx'), s'))
    (IN OUT : Vector (BitVec 8) 16) :
    ∃ out s₂, sm4.sm4_wb_enc lib IN OUT ctx' s' = .ok (out, s₂) ∧ s₂.obj = s'.obj ∧ s₂.live = s'.live ∧ s₂.out = s'.out := by
  rcases C71_encrypt hl hs fuel env key g ctx with ⟨e, -⟩ | ⟨g1, c1, s1, e, ok, h1⟩
  · rw [h] at e; cases e
  · rw [h] at e
    cases e
    obtain ⟨out, e2, -⟩ := h1 s' ok (fun _ _ h => h) IN OUT
    exact ⟨out, _, e2, rfl, live_skip ok 504, rfl⟩

theorem live_card (s : Heap) : s.live = ((Finset.range s.next).filter fun p => (s.obj p).isSome = true).card := by
  rw [Heap.live, ← List.toFinset_card_of_nodup (List.nodup_range.filter _)]
  congr 1
  ext p
  simp

/-- From `k` more live matrices at most 1344 are held by the global variables and the table object. -/
theorem lost_of {k : Nat} (hs : s.Ok) (hs' : s'.Ok) (hk : Keeps s s') (hl : s'.live = s.live + (1344 + k)) (g : sm4.Globals)
    (c : sm4.Sm4Whitebox) :
    ∃ U : Finset Nat, k ≤ U.card ∧ ∀ p ∈ U, (∃ m, s'.obj p = some m) ∧ s.obj p = none ∧ p ∉ pointers g c := by
  let F := (Finset.range s.next).filter fun p => (s.obj p).isSome = true
  let F' := (Finset.range s'.next).filter fun p => (s'.obj p).isSome = true
  refine ⟨(F' \ F) \ (pointers g c).toFinset, ?_, ?_⟩
  · have h1 := Finset.le_card_sdiff (pointers g c).toFinset (F' \ F)
    have h2 := Finset.le_card_sdiff F F'
    have h3 := List.toFinset_card_le (pointers g c)
    rw [length_pointers] at h3
    have h4 : F.card = s.live := (live_card s).symm
    have h5 : F'.card = s'.live := (live_card s').symm
    omega
  · intro p hp
    simp only [Finset.mem_sdiff, List.mem_toFinset, F, F', Finset.mem_filter, Finset.mem_range, not_and] at hp
    obtain ⟨⟨⟨-, h1⟩, h2⟩, h3⟩ := hp
    refine ⟨Option.isSome_iff_exists.1 h1, ?_, h3⟩
    by_contra h0
    obtain ⟨m, hm⟩ := Option.ne_none_iff_exists'.1 h0
    exact h2 (hs.lt hm) (by rw [hm]; rfl)

/-- C72 violated: `main` with `TEST = n + 1` generates the tables `n + 1` times and releases nothing: if it returns, there are
`1344 (n + 1)` matrices more on the heap than before, and for at least `1344 n` of them, allocated by the program, there is no
address in any of its variables. -/
theorem C72_main_leak_violated (hl : lib.Ok) (hs : s.Ok) {fuel : Nat} {env : Env} {n : Nat} {g g' : sm4.Globals}
    {ctx ctx' : sm4.Sm4Whitebox} {OUT OUT' : Vector (BitVec 8) 16}
    (h : sm4.main lib fuel env (n + 1) g ctx OUT s = .ok ((g', ctx', OUT'), s')) :
    s'.live = s.live + 1344 * (n + 1) ∧
    ∃ U : Finset Nat, 1344 * n ≤ U.card ∧ ∀ p ∈ U, (∃ m, s'.obj p = some m) ∧ s.obj p = none ∧ p ∉ pointers g' ctx' := by
  rcases sm4.main_run hl fuel (Own.empty hs) env (n + 1) g ctx OUT with ⟨-, e⟩ | ⟨r, s1, e, x, -⟩
  · rw [h] at e; cases e
  · rw [h] at e
    cases e
    have hlv : s'.live = s.live + 1344 * (n + 1) := by have := x.live; simpa using this
    exact ⟨hlv, lost_of hs x.own.ok (fun p m hp => (x.keep p m hp (by simp)).1) (by rw [hlv]; omega) g' ctx'⟩

/-- With the 100000 rounds of the program: 134400000 matrices, of which at most 1344 can be reached. -/
example (env : Env) (g : sm4.Globals) (ctx : sm4.Sm4Whitebox) (OUT : Vector (BitVec 8) 16) :
    ∃ g' ctx' OUT' s', sm4.main luckyLib 1 env 100000 g ctx OUT exHeap = .ok ((g', ctx', OUT'), s') ∧
      s'.live = exHeap.live + 134400000 ∧
      ∃ U : Finset Nat, 134398656 ≤ U.card ∧ ∀ p ∈ U, (∃ m, s'.obj p = some m) ∧ p ∉ pointers g' ctx' := by
  rcases C71_main luckyLib_ok exHeap_ok 1 env (n := 99999 + 1) (by omega) g ctx OUT with ⟨-, h⟩ | ⟨g', ctx', OUT', s', e, -⟩
  · exact absurd h luckyLib_not_unlucky
  · obtain ⟨h1, U, h2, h3⟩ := C72_main_leak_violated luckyLib_ok exHeap_ok e
    exact ⟨g', ctx', OUT', s', e, h1, U, h2, fun p hp => ⟨(h3 p hp).1, (h3 p hp).2.2⟩⟩

/-- The other two theorems apply as well. -/
example (env : Env) (key IN OUT : Vector (BitVec 8) 16) (g : sm4.Globals) (ctx : sm4.Sm4Whitebox) :
    ∃ r out s₂, sm4.sm4_wb_gen_tables luckyLib 1 env key g ctx exHeap = .ok r ∧ r.2.live = exHeap.live + 1344 ∧
      sm4.sm4_wb_enc luckyLib IN OUT r.1.2 r.2 = .ok (out, s₂) ∧ s₂.live = exHeap.live + 1344 := by
  rcases C71_encrypt luckyLib_ok exHeap_ok 1 env key g ctx with ⟨-, h⟩ | ⟨g', ctx', s', e, -⟩
  · exact absurd h luckyLib_not_unlucky
  · obtain ⟨out, s₂, e2, -, h2, -⟩ := C72_enc luckyLib_ok exHeap_ok e IN OUT
    have h1 := (C72_gen_tables luckyLib_ok exHeap_ok e).1
    exact ⟨_, out, s₂, e, h1, e2, h2.trans h1⟩

end WB.m4ri
