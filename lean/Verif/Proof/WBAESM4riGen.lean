import Verif.Model.WBAESM4ri
import Verif.Proof.AESMix
import Verif.Proof.WBSM4M4riGen

/-!
# The matrices of the M4RI based AES demo: generation and release (helper lemmas)
-/
namespace WB.m4ri

variable {lib : M4ri} {s s' s'' s0 : Heap} {T T' : Finset Nat} {k : Nat}

theorem genInv_more {n : Nat} (hn : 0 < n) (fuel : Nat) (h0 : s.Ok) (he : Ext k s T s' T') :
    RunD (¬ Lucky lib n fuel) (GenInvertibleMatGf2 lib fuel n n) s' fun p s'' => Ext (k + 1) s T s'' T' ∧
      (∃ A : Matrix (Fin n) (Fin n) (ZMod 2), IsUnit A ∧ Points s'' p A) ∧ s'.obj p = none ∧ s.obj p = none ∧ p ∉ T' ∧
      ∀ q m, s'.obj q = some m → s''.obj q = some m := by
  rw [GenInvertibleMatGf2, GenRandomMatGf2]
  simp only [bind_assoc, pure_bind]
  refine RunD.bind (.inr ((zero_new s' n n).more h0 he)) ?_
  rintro p s1 ⟨e1, pp, p0, pT, f1, np⟩
  refine RunD.bind (.inr (random_more (lib := lib) hn e1 p0 pp pT)) ?_
  rintro _ s2 ⟨e2, pp, f2, r2⟩
  refine RunD.bind ((draw_more hn fuel s1.rand s2 e2 p0 pT pp r2).weaken (fun hn hl => hn (hl _))) ?_
  rintro _ s3 ⟨e3, ⟨j, hu, pp⟩, f3⟩
  refine .inr (Run.pure ⟨e3, ⟨_, hu, pp⟩, np, p0, pT, ?_⟩)
  intro q m hm
  have hq : q ≠ p := by rintro rfl; rw [np] at hm; cases hm
  exact f3 q m hq (f2 q m hq (f1 q m (he.own.ok.ne_zero hm) hm))

namespace aes
open WB.aes
open WB.wbsm4 (rd3 wr3)

/-- The vectors as a set. -/
def Vecs.set (v : Vecs) : Finset Nat := {v.AA, v.BB, v.CC, v.DD}

structure Vecs.Distinct (v : Vecs) : Prop where
  ab : v.AA ≠ v.BB
  ac : v.AA ≠ v.CC
  ad : v.AA ≠ v.DD
  bc : v.BB ≠ v.CC
  bd : v.BB ≠ v.DD
  cd : v.CC ≠ v.DD

/-- `n` matrices have been allocated since `s0`, among them the four vectors. -/
structure Base (s0 : Heap) (v : Vecs) (n : Nat) (s : Heap) : Prop where
  ext : Ext n s0 ∅ s ∅
  vec : ∀ p ∈ v.set, s0.obj p = none ∧ ∃ V : Matrix (Fin 32) (Fin 1) (ZMod 2), Points s p V

/-- Nothing that existed has changed. -/
def Stays (s s' : Heap) : Prop := ∀ q m, s.obj q = some m → s'.obj q = some m

theorem Stays.refl : Stays s s := fun _ _ h => h
theorem Stays.trans (h : Stays s s') (h' : Stays s' s'') : Stays s s'' := fun q m hm => h' q m (h q m hm)

theorem Stays.points (h : Stays s s') {p r c : Nat} {A : Matrix (Fin r) (Fin c) (ZMod 2)} (hp : Points s p A) : Points s' p A := by
  obtain ⟨m, hm, hA⟩ := hp
  exact ⟨m, h _ _ hm, hA⟩

theorem Base.grow {v : Vecs} {n n' : Nat} (hb : Base s0 v n s) (he : Ext n' s0 ∅ s' ∅) (h : Stays s s') : Base s0 v n' s' :=
  ⟨he, fun p hp => ⟨(hb.vec p hp).1, (hb.vec p hp).2.imp fun _ hV => h.points hV⟩⟩

theorem Base.fresh0 {v : Vecs} {n : Nat} (hb : Base s0 v n s) {p : Nat} (hp : s.obj p = none) : s0.obj p = none := by
  cases h : s0.obj p with
  | none => rfl
  | some m => rw [(hb.ext.keep p m h (by simp)).1] at hp; cases hp

theorem Base.fresh_vec {v : Vecs} {n : Nat} (hb : Base s0 v n s) {p : Nat} (hp : s.obj p = none) : p ∉ v.set := by
  intro h
  obtain ⟨-, V, m, hm, -⟩ := hb.vec p h
  rw [hp] at hm; cases hm

/-! ## The pairs of matrices in the order of their generation -/

/-- Pointer `c` of pair `a`. -/
def Q (m : Mixing) (c a : Nat) : Nat :=
  if a % 20 < 4 then ((m.mb_32x32[a / 20]!)[a % 20]!)[c]! else ((m.mb_8x8[a / 20]!)[a % 20 - 4]!)[c]!

/-- The size of the matrices of pair `a`. -/
def size (a : Nat) : Nat := if a % 20 < 4 then 32 else 8

/-- The first `N` pairs have been generated. -/
structure Made (s0 : Heap) (v : Vecs) (m : Mixing) (N : Nat) (s : Heap) : Prop where
  base : Base s0 v (4 + 2 * N) s
  pair : ∀ a, a < N → ∃ A : Matrix (Fin (size a)) (Fin (size a)) (ZMod 2), IsUnit A ∧ Points s (Q m 0 a) A ∧
    Points s (Q m 1 a) A⁻¹
  new : ∀ a c, a < N → c < 2 → s0.obj (Q m c a) = none ∧ Q m c a ∉ v.set
  inj : ∀ a b c d, a < N → b < N → c < 2 → d < 2 → Q m c a = Q m d b → a = b ∧ c = d

theorem Made.live {v : Vecs} {m : Mixing} {N : Nat} (h : Made s0 v m N s) {a c : Nat} (ha : a < N) (hc : c < 2) :
    ∃ x, s.obj (Q m c a) = some x := by
  obtain ⟨A, -, ⟨x, hx, -⟩, ⟨y, hy, -⟩⟩ := h.pair a ha
  obtain rfl | rfl : c = 0 ∨ c = 1 := by omega
  · exact ⟨x, hx⟩
  · exact ⟨y, hy⟩

theorem Made.step {v : Vecs} {m m' : Mixing} {N p q : Nat} (h : Made s0 v m N s)
    (hm : ∀ a c, a < N → c < 2 → Q m' c a = Q m c a) (h0 : Q m' 0 N = p) (h1 : Q m' 1 N = q)
    (he : Ext (4 + 2 * N + 1 + 1) s0 ∅ s' ∅) (hst : Stays s s') (hp : s.obj p = none) (hq : s.obj q = none) (hpq : p ≠ q)
    {n : Nat} (hn : n = size N) {A : Matrix (Fin n) (Fin n) (ZMod 2)} (hA : IsUnit A) (hpA : Points s' p A)
    (hqA : Points s' q A⁻¹) : Made s0 v m' (N + 1) s' where
  base := h.base.grow (he.cast (by omega)) hst
  pair a ha := by
    by_cases e : a = N
    · subst e
      subst hn
      rw [h0, h1]
      exact ⟨A, hA, hpA, hqA⟩
    · obtain ⟨B, hB, h2, h3⟩ := h.pair a (by omega)
      rw [hm a 0 (by omega) (by omega), hm a 1 (by omega) (by omega)]
      exact ⟨B, hB, hst.points h2, hst.points h3⟩
  new a c ha hc := by
    by_cases e : a = N
    · subst e
      obtain rfl | rfl : c = 0 ∨ c = 1 := by omega
      · rw [h0]; exact ⟨h.base.fresh0 hp, h.base.fresh_vec hp⟩
      · rw [h1]; exact ⟨h.base.fresh0 hq, h.base.fresh_vec hq⟩
    · rw [hm a c (by omega) hc]
      exact h.new a c (by omega) hc
  inj a b c d ha hb hc hd e := by
    have old : ∀ a c, a < N → c < 2 → Q m c a ≠ p ∧ Q m c a ≠ q := by
      intro a c ha hc
      obtain ⟨x, hx⟩ := h.live ha hc
      refine ⟨?_, ?_⟩
      · intro e
        rw [e, hp] at hx
        cases hx
      · intro e
        rw [e, hq] at hx
        cases hx
    by_cases ea : a = N <;> by_cases eb : b = N
    · subst ea; subst eb
      refine ⟨rfl, ?_⟩
      have hcd : (c = 0 ∧ d = 0) ∨ (c = 0 ∧ d = 1) ∨ (c = 1 ∧ d = 0) ∨ (c = 1 ∧ d = 1) := by omega
      obtain ⟨rfl, rfl⟩ | ⟨rfl, rfl⟩ | ⟨rfl, rfl⟩ | ⟨rfl, rfl⟩ := hcd
      · rfl
      · rw [h0, h1] at e; exact absurd e hpq
      · rw [h0, h1] at e; exact absurd e.symm hpq
      · rfl
    · subst ea
      rw [hm b d (by omega) hd] at e
      have := old b d (by omega) hd
      obtain rfl | rfl : c = 0 ∨ c = 1 := by omega
      · rw [h0] at e; exact absurd e.symm this.1
      · rw [h1] at e; exact absurd e.symm this.2
    · subst eb
      rw [hm a c (by omega) hc] at e
      have := old a c (by omega) hc
      obtain rfl | rfl : d = 0 ∨ d = 1 := by omega
      · rw [h0] at e; exact absurd e this.1
      · rw [h1] at e; exact absurd e this.2
    · rw [hm a c (by omega) hc, hm b d (by omega) hd] at e
      exact h.inj a b c d (by omega) (by omega) hc hd e

/-- One pair. -/
theorem pair_run (hl : lib.Ok) (fuel : Nat) (h0 : s0.Ok) {n N : Nat} (hn : 0 < n) {v : Vecs} {m : Mixing} (h : Made s0 v m N s)
    {α β : Type} {w1 : Nat → WB.C α} {w2 : α → WB.C Nat} {w3 : α → Nat → WB.C α} {f : α → β} {P : β → Heap → Prop}
    (hw1 : ∀ p, ∃ t, w1 p = .ok t ∧ w2 t = .ok p ∧ ∀ q, ∃ t', w3 t q = .ok t' ∧ ∀ s' (A : Matrix (Fin n) (Fin n) (ZMod 2)),
      Ext (4 + 2 * N + 1 + 1) s0 ∅ s' ∅ → Stays s s' → s.obj p = none → s.obj q = none → p ≠ q → IsUnit A → Points s' p A →
      Points s' q A⁻¹ → P (f t') s') :
    RunD (¬ Lucky lib n fuel) (do
      let t ← liftC (w1 (← GenInvertibleMatGf2 lib fuel n n))
      let t ← liftC (w3 t (← GenMatGf2Inv lib (← liftC (w2 t))))
      pure (f t) : MM β) s P := by
  refine RunD.bind (genInv_more hn fuel h0 h.base.ext) ?_
  rintro p s1 ⟨e1, ⟨A, hA, pA⟩, np, -, -, f1⟩
  obtain ⟨t, et, et2, hq⟩ := hw1 p
  refine RunD.step (liftC_run _ et) (RunD.step (liftC_run _ et2) ?_)
  refine RunD.bind (.inr ((inv_new hl e1.own.ok pA hA).more h0 e1)) ?_
  rintro q s2 ⟨e2, qA, -, -, f2, nq⟩
  obtain ⟨t', et', hP⟩ := hq q
  refine RunD.step (liftC_run _ et') (.inr (Run.pure (hP s2 A e2 ?_ np ?_ ?_ hA ?_ qA)))
  · intro r x hx
    exact f2 r x (h.base.ext.own.ok.ne_zero hx) (f1 r x hx)
  · cases hx : s.obj q with
    | none => rfl
    | some x => rw [f1 q x hx] at nq; cases nq
  · rintro rfl
    obtain ⟨x, hx, -⟩ := pA
    rw [nq] at hx; cases hx
  · exact f2.points pA (pA.ne_zero e1.own.ok)

theorem Q32 (m : Mixing) (c i k : Nat) (hk : k < 4) : Q m c (20 * i + k) = ((m.mb_32x32[i]!)[k]!)[c]! := by
  unfold Q
  rw [if_pos (by omega), show (20 * i + k) / 20 = i by omega, show (20 * i + k) % 20 = k by omega]

theorem Q8 (m : Mixing) (c i k : Nat) (hk : k < 16) : Q m c (20 * i + 4 + k) = ((m.mb_8x8[i]!)[k]!)[c]! := by
  unfold Q
  rw [if_neg (by omega), show (20 * i + 4 + k) / 20 = i by omega, show (20 * i + 4 + k) % 20 - 4 = k by omega]

/-- Two entries of an array of pointers are set, and nothing else. -/
theorem two_writes {a b c : Nat} (t : Vector (Vector (Vector Nat c) b) a) {i k : Nat} (hi : i < a) (hk : k < b) (hc : 1 < c) (p : Nat) :
    ∃ t1, wr3 t i k 0 p = .ok t1 ∧ rd3 t1 i k 0 = .ok p ∧ ∀ q, ∃ t2, wr3 t1 i k 1 q = .ok t2 ∧ ((t2[i]!)[k]!)[0]! = p ∧
      ((t2[i]!)[k]!)[1]! = q ∧ ∀ i' k' c', i' < a → k' < b → c' < c → ¬ (i' = i ∧ k' = k) →
        ((t2[i']!)[k']!)[c']! = ((t[i']!)[k']!)[c']! := by
  obtain ⟨t1, et, ht⟩ := wr3_get t (i := i) (k := k) (t := 0) hi hk (by omega) p
  refine ⟨t1, et, ?_, ?_⟩
  · rw [rd3_get t1 hi hk (by omega), ht i k 0 hi hk (by omega), if_pos ⟨rfl, rfl, rfl⟩]
  · intro q
    obtain ⟨t2, et2, ht2⟩ := wr3_get t1 (i := i) (k := k) (t := 1) hi hk (by omega) q
    refine ⟨t2, et2, ?_, ?_, ?_⟩
    · rw [ht2 _ _ _ hi hk (by omega), if_neg (by omega), ht _ _ _ hi hk (by omega), if_pos ⟨rfl, rfl, rfl⟩]
    · rw [ht2 _ _ _ hi hk (by omega), if_pos ⟨rfl, rfl, rfl⟩]
    · intro i' k' c' h1 h2 h3 hn
      rw [ht2 _ _ _ h1 h2 h3, if_neg (by omega), ht _ _ _ h1 h2 h3, if_neg (by omega)]

theorem gen32_run (hl : lib.Ok) (fuel : Nat) (h0 : s0.Ok) {v : Vecs} {m : Mixing} {i k : Nat} (hi : i < 10) (hk : k < 4)
    (hm : Made s0 v m (20 * i + k) s) : RunD (¬ Lucky lib 32 fuel) (do
      let t ← liftC (wr3 m.mb_32x32 i k 0 (← GenInvertibleMatGf2 lib fuel 32 32))
      let t ← liftC (wr3 t i k 1 (← GenMatGf2Inv lib (← liftC (rd3 t i k 0))))
      pure { m with mb_32x32 := t } : MM Mixing) s fun m' s' => Made s0 v m' (20 * i + (k + 1)) s' := by
  refine pair_run hl fuel h0 (n := 32) (by omega) hm (w1 := fun p => wr3 m.mb_32x32 i k 0 p) (w2 := fun t => rd3 t i k 0)
    (w3 := fun t q => wr3 t i k 1 q) (f := fun t => { m with mb_32x32 := t }) ?_
  intro p
  obtain ⟨t, et, er, h⟩ := two_writes m.mb_32x32 hi hk (by omega) p
  refine ⟨t, et, er, ?_⟩
  intro q
  obtain ⟨t', et', h1, h2, h3⟩ := h q
  refine ⟨t', et', ?_⟩
  intro s' A he hst np nq hpq hA pA qA
  refine Made.step (N := 20 * i + k) hm ?_ ?_ ?_ he hst np nq hpq ?_ hA pA qA
  · intro a c ha hc
    unfold Q
    by_cases ca : a % 20 < 4
    · rw [if_pos ca, if_pos ca]
      exact h3 _ _ _ (by omega) ca hc (by omega)
    · rw [if_neg ca, if_neg ca]
  · rw [Q32 _ _ _ _ hk]
    exact h1
  · rw [Q32 _ _ _ _ hk]
    exact h2
  · unfold size
    rw [if_pos (by omega)]

theorem gen8_run (hl : lib.Ok) (fuel : Nat) (h0 : s0.Ok) {v : Vecs} {m : Mixing} {i k : Nat} (hi : i < 10) (hk : k < 16)
    (hm : Made s0 v m (20 * i + 4 + k) s) : RunD (¬ Lucky lib 8 fuel) (do
      let t ← liftC (wr3 m.mb_8x8 i k 0 (← GenInvertibleMatGf2 lib fuel 8 8))
      let t ← liftC (wr3 t i k 1 (← GenMatGf2Inv lib (← liftC (rd3 t i k 0))))
      pure { m with mb_8x8 := t } : MM Mixing) s fun m' s' => Made s0 v m' (20 * i + 4 + (k + 1)) s' := by
  refine pair_run hl fuel h0 (n := 8) (by omega) hm (w1 := fun p => wr3 m.mb_8x8 i k 0 p) (w2 := fun t => rd3 t i k 0)
    (w3 := fun t q => wr3 t i k 1 q) (f := fun t => { m with mb_8x8 := t }) ?_
  intro p
  obtain ⟨t, et, er, h⟩ := two_writes m.mb_8x8 hi hk (by omega) p
  refine ⟨t, et, er, ?_⟩
  intro q
  obtain ⟨t', et', h1, h2, h3⟩ := h q
  refine ⟨t', et', ?_⟩
  intro s' A he hst np nq hpq hA pA qA
  refine Made.step (N := 20 * i + 4 + k) hm ?_ ?_ ?_ he hst np nq hpq ?_ hA pA qA
  · intro a c ha hc
    unfold Q
    by_cases ca : a % 20 < 4
    · rw [if_pos ca, if_pos ca]
    · rw [if_neg ca, if_neg ca]
      exact h3 _ _ _ (by omega) (by omega) hc (by omega)
  · rw [Q8 _ _ _ _ hk]
    exact h1
  · rw [Q8 _ _ _ _ hk]
    exact h2
  · unfold size
    rw [if_neg (by omega)]

theorem genMixing_run (hl : lib.Ok) (fuel : Nat) (h0 : s0.Ok) {v : Vecs} {m : Mixing} (h : Made s0 v m 0 s) :
    RunD (¬ (Lucky lib 8 fuel ∧ Lucky lib 32 fuel)) (genMixing lib fuel m) s fun m' s' => Made s0 v m' 200 s' := by
  rw [genMixing]
  refine RunD.forUp (fun i m s => Made s0 v m (20 * i) s) (by omega) h ?_ (fun _ _ h => h)
  intro i m s _ hi hm
  refine RunD.bind (RunD.forUp (fun k m s => Made s0 v m (20 * i + k) s) (by omega) hm ?_ (fun _ _ h => h)) ?_
  · intro k m s _ hk hm
    exact (gen32_run hl fuel h0 hi hk hm).weaken (fun h (h2 : Lucky lib 8 fuel ∧ Lucky lib 32 fuel) => h h2.2)
  · intro m s hm
    refine RunD.forUp (fun k m s => Made s0 v m (20 * i + 4 + k) s) (by omega) hm ?_
      (fun m s h => by rwa [show 20 * (i + 1) = 20 * i + 4 + 16 by omega])
    intro k m s _ hk hm
    exact (gen8_run hl fuel h0 hi hk hm).weaken (fun h (h2 : Lucky lib 8 fuel ∧ Lucky lib 32 fuel) => h h2.1)

/-! ## Release -/

/-- The matrices still to be freed: `D c a` says that pointer `c` of pair `a` has been freed. -/
structure Left (s0 : Heap) (m : Mixing) (n : Nat) (D : Nat → Nat → Prop) (s : Heap) : Prop where
  ext : Ext n s0 ∅ s ∅
  live : ∀ a c, a < 200 → c < 2 → ¬ D c a → ∃ x, s.obj (Q m c a) = some x
  new : ∀ a c, a < 200 → c < 2 → s0.obj (Q m c a) = none
  inj : ∀ a b c d, a < 200 → b < 200 → c < 2 → d < 2 → Q m c a = Q m d b → a = b ∧ c = d

theorem Left.free {m : Mixing} {n : Nat} {D D' : Nat → Nat → Prop} (h : Left s0 m (n + 1) D s) {a c : Nat} (ha : a < 200)
    (hc : c < 2) (hD : ¬ D c a) (hD' : ∀ b d, ¬ D' d b → ¬ D d b ∧ ¬ (b = a ∧ d = c)) :
    Run (MatGf2Free (Q m c a)) s fun _ s' => Left s0 m n D' s' := by
  obtain ⟨x, hx⟩ := h.live a c ha hc hD
  refine Run.of_eq (free_run h.ext.own.ok hx) ⟨h.ext.drop (h.new a c ha hc) hx (by simp), ?_, h.new, h.inj⟩
  intro b d hb hd hn
  obtain ⟨h1, h2⟩ := hD' b d hn
  rw [setObj_ne _ _ (fun e => h2 (h.inj b a d c hb ha hd hc e))]
  exact h.live b d hb hd h1

theorem freeMixing_run {m : Mixing} {n : Nat} (h : Left s0 m (n + 400) (fun _ _ => False) s) :
    Run (do
      forUp 0 10 () fun i _ => forUp 0 16 () fun j _ => do
        MatGf2Free (← liftC (rd3 m.mb_8x8 i j 0))
        MatGf2Free (← liftC (rd3 m.mb_8x8 i j 1))
      forUp 0 10 () fun i _ => forUp 0 4 () fun j _ => do
        MatGf2Free (← liftC (rd3 m.mb_32x32 i j 0))
        MatGf2Free (← liftC (rd3 m.mb_32x32 i j 1)) : MM Unit) s fun _ s' => Ext n s0 ∅ s' ∅ := by
  refine Run.bind (P := fun _ s => Left s0 m (n + 80) (fun _ a => 4 ≤ a % 20) s) ?_ ?_
  · refine Run.forUp (fun i _ s => Left s0 m (n + 80 + 32 * (10 - i)) (fun _ a => 4 ≤ a % 20 ∧ a < 20 * i) s) (by omega) ?_ ?_ ?_
    · exact ⟨h.ext.cast (by omega), fun a c ha hc _ => h.live a c ha hc (fun h => h), h.new, h.inj⟩
    · intro i _ s _ hi h
      refine Run.forUp (fun j _ s => Left s0 m (n + 80 + 32 * (9 - i) + 2 * (16 - j))
        (fun _ a => 4 ≤ a % 20 ∧ a < 20 * i + 4 + j) s) (by omega) ?_ ?_ ?_
      · refine ⟨h.ext.cast (by omega), fun a c ha hc hn => h.live a c ha hc (fun h2 => hn ?_), h.new, h.inj⟩
        omega
      · intro j _ s _ hj h
        rw [rd3_get m.mb_8x8 hi hj (by omega), rd3_get m.mb_8x8 hi hj (by omega), ← Q8 m 0 i j hj, ← Q8 m 1 i j hj]
        have h2 : Left s0 m (n + 80 + 32 * (9 - i) + 2 * (16 - (j + 1)) + 1 + 1) (fun _ a => 4 ≤ a % 20 ∧ a < 20 * i + 4 + j) s :=
          ⟨h.ext.cast (by omega), h.live, h.new, h.inj⟩
        refine Run.step (liftC_run _ rfl) (Run.bind (P := fun _ s => Left s0 m (n + 80 + 32 * (9 - i) + 2 * (16 - (j + 1)) + 1)
          (fun c a => 4 ≤ a % 20 ∧ a < 20 * i + 4 + j ∨ a = 20 * i + 4 + j ∧ c = 0) s) (h2.free (by omega) (by omega) (by omega) ?_) ?_)
        · intro b d hn
          omega
        · intro _ s h
          refine Run.step (liftC_run _ rfl) (h.free (by omega) (by omega) (by omega) ?_)
          intro b d hn
          omega
      · intro _ s h
        refine ⟨h.ext.cast (by omega), fun a c ha hc hn => h.live a c ha hc (fun h2 => hn ?_), h.new, h.inj⟩
        omega
    · intro _ s h
      refine ⟨h.ext.cast (by omega), fun a c ha hc hn => h.live a c ha hc (fun h2 => hn ?_), h.new, h.inj⟩
      omega
  · intro _ s h
    refine Run.forUp (fun i _ s => Left s0 m (n + 8 * (10 - i)) (fun _ a => 4 ≤ a % 20 ∨ a < 20 * i) s) (by omega) ?_ ?_ ?_
    · exact ⟨h.ext.cast (by omega), fun a c ha hc hn => h.live a c ha hc (fun h2 => hn (.inl h2)), h.new, h.inj⟩
    · intro i _ s _ hi h
      refine Run.forUp (fun j _ s => Left s0 m (n + 8 * (9 - i) + 2 * (4 - j))
        (fun _ a => 4 ≤ a % 20 ∨ a < 20 * i + j) s) (by omega) ?_ ?_ ?_
      · refine ⟨h.ext.cast (by omega), fun a c ha hc hn => h.live a c ha hc (fun h2 => hn ?_), h.new, h.inj⟩
        omega
      · intro j _ s _ hj h
        rw [rd3_get m.mb_32x32 hi hj (by omega), rd3_get m.mb_32x32 hi hj (by omega), ← Q32 m 0 i j hj, ← Q32 m 1 i j hj]
        have h2 : Left s0 m (n + 8 * (9 - i) + 2 * (4 - (j + 1)) + 1 + 1) (fun _ a => 4 ≤ a % 20 ∨ a < 20 * i + j) s :=
          ⟨h.ext.cast (by omega), h.live, h.new, h.inj⟩
        refine Run.step (liftC_run _ rfl) (Run.bind (P := fun _ s => Left s0 m (n + 8 * (9 - i) + 2 * (4 - (j + 1)) + 1)
          (fun c a => (4 ≤ a % 20 ∨ a < 20 * i + j) ∨ a = 20 * i + j ∧ c = 0) s) (h2.free (by omega) (by omega) (by omega) ?_) ?_)
        · intro b d hn
          omega
        · intro _ s h
          refine Run.step (liftC_run _ rfl) (h.free (by omega) (by omega) (by omega) ?_)
          intro b d hn
          omega
      · intro _ s h
        refine ⟨h.ext.cast (by omega), fun a c ha hc hn => h.live a c ha hc (fun h2 => hn ?_), h.new, h.inj⟩
        omega
    · intro _ s h
      exact h.ext.cast (by omega)

end aes
end WB.m4ri
