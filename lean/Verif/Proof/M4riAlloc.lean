import Verif.SpecM4riAlloc
import Verif.Proof.Wp
import Mathlib.Data.Finset.Prod

namespace WB.m4a

theorem C_ok_bind {α β : Type} (a : α) (f : α → C β) : ((Except.ok a : C α) >>= f) = f a := rfl

/-! ## `log2_floor` -/

theorem log2_step {w v : BitVec 64} {r i S : Nat} {b : BitVec 64} (hS : S = 2 ^ i) (hi : i < 6) (hb : ∀ k < 64, b.getLsbD k = decide (S ≤ k ∧ k < 2 * S))
    (h1 : ∀ k, v.getLsbD k = w.getLsbD (r + k)) (h2 : ∀ k, 2 * S ≤ k → v.getLsbD k = false) (h3 : r % (2 * S) = 0) (h4 : ∃ k, v.getLsbD k = true) :
    ∃ v' r', (if v &&& b ≠ 0#64 then (v >>> S, r ||| S) else (v, r)) = (v', r') ∧ (∀ k, v'.getLsbD k = w.getLsbD (r' + k)) ∧ (∀ k, S ≤ k → v'.getLsbD k = false) ∧ r' % S = 0 ∧
      ∃ k, v'.getLsbD k = true := by
  by_cases h : v &&& b ≠ 0#64
  · rw [if_pos h]
    refine ⟨_, _, rfl, ?_⟩
    have hor : r ||| S = r + S := by
      have := Nat.two_pow_add_eq_or_of_lt (i := i + 1) (b := S) (by rw [hS, Nat.pow_succ]; have := Nat.two_pow_pos i; omega) (r / 2 ^ (i + 1))
      have e : 2 ^ (i + 1) = 2 * S := by rw [hS, Nat.pow_succ, Nat.mul_comm]
      rw [e] at this
      have e2 : 2 * S * (r / (2 * S)) = r := Nat.mul_div_cancel' (Nat.dvd_of_mod_eq_zero h3)
      rw [e2] at this
      exact this.symm
    rw [hor]
    refine ⟨fun k => ?_, fun k hk => ?_, ?_, ?_⟩
    · rw [BitVec.getLsbD_ushiftRight, h1, Nat.add_assoc]
    · rw [BitVec.getLsbD_ushiftRight]; exact h2 _ (by omega)
    · rw [Nat.add_mod_right]
      exact Nat.mod_eq_zero_of_dvd ((Nat.dvd_mul_left S 2).trans (Nat.dvd_of_mod_eq_zero h3))
    · by_contra hn
      apply h
      apply BitVec.eq_of_getLsbD_eq
      intro k hk
      rw [BitVec.getLsbD_and, hb k hk]
      by_cases hc : S ≤ k ∧ k < 2 * S
      · have : v.getLsbD k = false := by
          by_contra hv
          exact hn ⟨k - S, by rw [BitVec.getLsbD_ushiftRight, show S + (k - S) = k by omega]; simpa using hv⟩
        rw [this]; simp
      · rw [decide_eq_false hc]; simp
  · rw [if_neg h]
    have hz : v &&& b = 0#64 := by simpa using h
    refine ⟨_, _, rfl, h1, fun k hk => ?_, ?_, h4⟩
    · by_cases hk2 : 2 * S ≤ k
      · exact h2 k hk2
      by_cases h64 : k < 64
      · have := congrArg (fun x => BitVec.getLsbD x k) hz
        simp only [BitVec.getLsbD_and, hb k h64] at this
        rw [decide_eq_true (show S ≤ k ∧ k < 2 * S by omega)] at this
        simpa using this
      · exact BitVec.getLsbD_of_ge _ _ (by omega)
    · exact Nat.mod_eq_zero_of_dvd ((Nat.dvd_mul_left S 2).trans (Nat.dvd_of_mod_eq_zero h3))

theorem log2_spec {v : BitVec 64} (h : v ≠ 0#64) : v.getLsbD (log2_floor v) = true ∧ ∀ k, log2_floor v < k → v.getLsbD k = false := by
  have h4 : ∃ k, v.getLsbD k = true := by
    by_contra hn
    apply h
    apply BitVec.eq_of_getLsbD_eq
    intro k _
    have : ¬ v.getLsbD k = true := fun e => hn ⟨k, e⟩
    simpa using this
  obtain ⟨v5, r5, e5, a5, b5, c5, d5⟩ := log2_step (w := v) (v := v) (r := 0) (i := 5) (b := 0xFFFFFFFF00000000#64) rfl (by decide) (by decide) (fun k => by rw [Nat.zero_add])
    (fun k hk => BitVec.getLsbD_of_ge _ _ (by omega)) rfl h4
  obtain ⟨v4, r4, e4, a4, b4, c4, d4⟩ := log2_step (w := v) (i := 4) (b := 0xFFFF0000#64) rfl (by decide) (by decide) a5 b5 c5 d5
  obtain ⟨v3, r3, e3, a3, b3, c3, d3⟩ := log2_step (w := v) (i := 3) (b := 0xFF00#64) rfl (by decide) (by decide) a4 b4 c4 d4
  obtain ⟨v2, r2, e2, a2, b2, c2, d2⟩ := log2_step (w := v) (i := 2) (b := 0xF0#64) rfl (by decide) (by decide) a3 b3 c3 d3
  obtain ⟨v1, r1, e1, a1, b1, c1, d1⟩ := log2_step (w := v) (i := 1) (b := 0xC#64) rfl (by decide) (by decide) a2 b2 c2 d2
  obtain ⟨v0, r0, e0, a0, b0, c0, d0⟩ := log2_step (w := v) (i := 0) (b := 0x2#64) rfl (by decide) (by decide) a1 b1 c1 d1
  have e : log2_floor v = r0 := by
    unfold log2_floor log2Const
    simp only [List.reverse_cons, List.reverse_nil, List.nil_append, List.cons_append, List.foldl_cons, List.foldl_nil]
    rw [show (2 : Nat) ^ 5 = 32 from rfl] at e5
    rw [show (2 : Nat) ^ 4 = 16 from rfl] at e4
    rw [show (2 : Nat) ^ 3 = 8 from rfl] at e3
    rw [show (2 : Nat) ^ 2 = 4 from rfl] at e2
    rw [show (2 : Nat) ^ 1 = 2 from rfl] at e1
    rw [show (2 : Nat) ^ 0 = 1 from rfl] at e0
    rw [e5, e4, e3, e2, e1, e0]
  rw [e]
  obtain ⟨k, hk⟩ := d0
  have hk0 : k = 0 := by
    by_contra hne
    rw [b0 k (by simp; omega)] at hk; exact absurd hk (by simp)
  subst hk0
  refine ⟨by rw [a0] at hk; exact hk, fun k hk => ?_⟩
  have := a0 (k - r0)
  rw [b0 _ (by simp; omega), show r0 + (k - r0) = k by omega] at this
  exact this.symm

/-! ## The list of blocks -/

/-- The blocks of a list follow each other; `p` is before the first, `n` after the last. -/
def Seg (blk : Nat → Option Blk) : Option Nat → List Nat → Option Nat → Prop
  | _, [], _ => True
  | p, c :: l, n => (∃ u, blk c = some ⟨p, l.head?.or n, u⟩) ∧ Seg blk (some c) l n

variable {blk blk' : Nat → Option Blk} {p n : Option Nat} {l xs ys : List Nat} {a c : Nat}

theorem seg_mem (h : Seg blk p l n) (hc : c ∈ l) : ∃ x, blk c = some x := by
  induction l generalizing p with
  | nil => simp at hc
  | cons d l ih =>
    rcases List.mem_cons.1 hc with rfl | hc
    · obtain ⟨⟨u, e⟩, _⟩ := h; exact ⟨_, e⟩
    · exact ih h.2 hc

theorem seg_used (h : Seg blk p l n) (hu : ∀ c ∈ l, ∀ x, blk c = some x → ∃ u, blk' c = some { x with used := u }) : Seg blk' p l n := by
  induction l generalizing p with
  | nil => trivial
  | cons d l ih =>
    obtain ⟨⟨u, e⟩, h2⟩ := h
    obtain ⟨u', e'⟩ := hu d List.mem_cons_self _ e
    exact ⟨⟨u', e'⟩, ih h2 fun c hc => hu c (List.mem_cons_of_mem _ hc)⟩

theorem seg_congr (h : Seg blk p l n) (hu : ∀ c ∈ l, blk' c = blk c) : Seg blk' p l n :=
  seg_used h fun c hc x hx => ⟨x.used, by rw [hu c hc, hx]⟩

theorem seg_join : Seg blk p (xs ++ [a] ++ ys) n ↔ Seg blk p (xs ++ [a]) (ys.head?.or n) ∧ Seg blk (some a) ys n := by
  induction xs generalizing p with
  | nil =>
    show ((∃ u, blk a = some ⟨p, ys.head?.or n, u⟩) ∧ Seg blk (some a) ys n) ↔ ((∃ u, blk a = some ⟨p, none.or (ys.head?.or n), u⟩) ∧ True) ∧ _
    rw [Option.none_or, and_true]
  | cons x xs ih =>
    show ((∃ u, blk x = some ⟨p, (xs ++ [a] ++ ys).head?.or n, u⟩) ∧ Seg blk (some x) (xs ++ [a] ++ ys) n) ↔
      ((∃ u, blk x = some ⟨p, (xs ++ [a]).head?.or (ys.head?.or n), u⟩) ∧ Seg blk (some x) (xs ++ [a]) (ys.head?.or n)) ∧ _
    have e : (xs ++ [a] ++ ys).head?.or n = (xs ++ [a]).head?.or (ys.head?.or n) := by cases xs <;> simp
    rw [ih, e, and_assoc]

theorem seg_setLast {x : Blk} {n' : Option Nat} (h : Seg blk p (xs ++ [a]) n) (hx : blk a = some x) (hc : ∀ c ∈ xs, blk' c = blk c) (ha : blk' a = some { x with next := n' }) :
    Seg blk' p (xs ++ [a]) n' := by
  induction xs generalizing p with
  | nil =>
    obtain ⟨⟨u, e⟩, _⟩ := h
    obtain rfl : x = ⟨p, [].head?.or n, u⟩ := by rw [hx] at e; exact Option.some.inj e
    exact ⟨⟨u, by rw [ha]; rfl⟩, trivial⟩
  | cons y xs ih =>
    obtain ⟨⟨u, e⟩, h2⟩ := h
    refine ⟨⟨u, ?_⟩, ih h2 fun c hc' => hc c (List.mem_cons_of_mem _ hc')⟩
    rw [hc y List.mem_cons_self, e]
    cases xs <;> rfl

/-! ## The invariant -/

/-- `l` are the blocks after the first. -/
structure CInv (s : Cache) (l : List Nat) (L : Finset Hdr) : Prop where
  seg : Seg s.blk none (0 :: l) none
  nodup : (0 :: l).Nodup
  only : ∀ b, s.blk b ≠ none → b ∈ 0 :: l
  lt : ∀ b ∈ 0 :: l, b < s.fresh
  len : l.length < 16
  cur : s.cur ∈ 0 :: l
  ownlt : ∀ p, s.own p = true → p < s.fresh
  ents : ∀ b e, .entry b e ∈ L ↔ ∃ x, s.blk b = some x ∧ x.used.getLsbD e = true
  owns : ∀ p, .own p ∈ L ↔ s.own p = true

/-- No block after the first is empty. -/
def NoEmpty (s : Cache) (l : List Nat) : Prop := ∀ b ∈ l, ∀ x, s.blk b = some x → x.used ≠ 0#64

theorem get_some {s : Cache} {b : Nat} {x : Blk} (h : s.blk b = some x) : s.get b = .ok x := by unfold Cache.get; rw [h]
theorem set_some {s : Cache} {b : Nat} {x y : Blk} (h : s.blk b = some x) : s.set b y = .ok { s with blk := fun k => if k = b then some y else s.blk k } := by
  unfold Cache.set; rw [h]

theorem CInv.length {s : Cache} {L : Finset Hdr} (h : CInv s l L) : (0 :: l).length ≤ s.fresh := by
  have := (List.subperm_of_subset h.nodup (l₂ := List.range s.fresh) fun b hb => List.mem_range.2 (h.lt b hb)).length_le
  rwa [List.length_range] at this

theorem notFull_spec {s : Cache} (hs : Seg s.blk p ys none) : ∀ {fuel cur i : Nat}, ys.length < fuel →
    ∃ res, notFull s fuel ys.head? cur i = .ok res ∧ ((∃ c cur' i', res = (some c, cur', i') ∧ c ∈ ys ∧ ∃ x, s.blk c = some x ∧ x.used ≠ BitVec.allOnes 64) ∨
      (res = (none, ys.getLast?.getD cur, i + ys.length) ∧ ∀ c ∈ ys, ∃ x, s.blk c = some x ∧ x.used = BitVec.allOnes 64)) := by
  induction ys generalizing p with
  | nil =>
    intro fuel cur i hf
    obtain ⟨f, rfl⟩ : ∃ f, fuel = f + 1 := ⟨fuel - 1, by omega⟩
    exact ⟨_, rfl, .inr ⟨rfl, fun c hc => by simp at hc⟩⟩
  | cons c ys ih =>
    intro fuel cur i hf
    obtain ⟨f, rfl⟩ : ∃ f, fuel = f + 1 := ⟨fuel - 1, by omega⟩
    obtain ⟨⟨u, e⟩, h2⟩ := hs
    rw [Option.or_none] at e
    show ∃ res, (do let x ← s.get c; if x.used = BitVec.allOnes 64 then notFull s f x.next c (i + 1) else pure (some c, cur, i)) = .ok res ∧ _
    rw [get_some e, C_ok_bind]
    by_cases hu : u = BitVec.allOnes 64
    · rw [if_pos hu]
      obtain ⟨res, e1, h | ⟨h1, h3⟩⟩ := ih h2 (fuel := f) (cur := c) (i := i + 1) (by simp at hf; omega)
      · obtain ⟨d, cur', i', h1, h3, h4⟩ := h
        exact ⟨res, e1, .inl ⟨d, cur', i', h1, List.mem_cons_of_mem _ h3, h4⟩⟩
      · refine ⟨res, e1, .inr ⟨?_, fun d hd => ?_⟩⟩
        · rw [h1, List.getLast?_cons, List.length_cons]
          simp; omega
        · rcases List.mem_cons.1 hd with rfl | hd
          · exact ⟨_, e, hu⟩
          · exact h3 d hd
    · rw [if_neg hu]
      exact ⟨_, rfl, .inl ⟨c, cur, i, rfl, List.mem_cons_self, _, e, hu⟩⟩

theorem not_allOnes {u : BitVec 64} (h : u ≠ BitVec.allOnes 64) : ~~~u ≠ 0#64 := by
  intro h2
  apply h
  have := congrArg (fun x => ~~~x) h2
  simpa using this

theorem or_bit (u : BitVec 64) {e k : Nat} (he : e < 64) : (u ||| (1#64 <<< e)).getLsbD k = (u.getLsbD k || decide (k = e)) := by
  rw [BitVec.getLsbD_or, BitVec.getLsbD_shiftLeft, BitVec.getLsbD_one]
  by_cases h : k = e
  · subst h; simp [he]
  · rw [decide_eq_false h]
    by_cases h1 : k < e
    · simp [h1]
    · have : ¬ k - e = 0 := by omega
      simp [this]

theorem takeEntry_spec {s : Cache} {L : Finset Hdr} {x : Blk} (h : CInv s l L) (hx : s.blk s.cur = some x) (hu : x.used ≠ BitVec.allOnes 64)
    (hne : ∀ b ∈ l, b ≠ s.cur → ∀ x, s.blk b = some x → x.used ≠ 0#64) :
    ∃ p s', takeEntry s = .ok (p, s') ∧ p ∉ L ∧ CInv s' l (insert p L) ∧ NoEmpty s' l ∧ ∃ e, p = .entry s.cur e := by
  have hl := log2_spec (not_allOnes hu)
  have h64 : log2_floor (~~~x.used) < 64 := by
    by_contra hc
    rw [BitVec.getLsbD_of_ge _ _ (by omega)] at hl
    exact absurd hl.1 (by simp)
  have hun : x.used.getLsbD (log2_floor (~~~x.used)) = false := by
    have := hl.1
    rw [BitVec.getLsbD_not, decide_eq_true h64] at this
    simpa using this
  unfold takeEntry
  rw [get_some hx, C_ok_bind]
  simp only []
  generalize log2_floor (~~~x.used) = e at hl h64 hun
  rw [set_some hx, C_ok_bind]
  refine ⟨_, _, rfl, ?_, ⟨?_, h.nodup, ?_, h.lt, h.len, h.cur, h.ownlt, ?_, ?_⟩, ?_, e, rfl⟩
  · rw [h.ents]
    rintro ⟨y, hy, hb⟩
    obtain rfl : x = y := by rw [hx] at hy; exact Option.some.inj hy
    rw [hun] at hb; exact absurd hb (by simp)
  · refine seg_used h.seg fun c hc y hy => ?_
    by_cases hcc : c = s.cur
    · subst hcc
      obtain rfl : x = y := by rw [hx] at hy; exact Option.some.inj hy
      exact ⟨_, if_pos rfl⟩
    · exact ⟨y.used, by show (if c = s.cur then _ else s.blk c) = _; rw [if_neg hcc, hy]⟩
  · intro b hb
    by_cases hcc : b = s.cur
    · rw [hcc]; exact h.cur
    · refine h.only b fun hn => hb ?_
      show (if b = s.cur then _ else s.blk b) = _
      rw [if_neg hcc, hn]
  · intro b k
    rw [Finset.mem_insert, h.ents]
    show _ ↔ ∃ y, (if b = s.cur then some { x with used := x.used ||| (1#64 <<< e) } else s.blk b) = some y ∧ _
    by_cases hcc : b = s.cur
    · subst hcc
      rw [if_pos rfl]
      constructor
      · rintro (hk | ⟨y, hy, hb⟩)
        · obtain rfl : k = e := by injection hk
          exact ⟨_, rfl, by rw [or_bit _ h64, decide_eq_true rfl]; simp⟩
        · obtain rfl : x = y := by rw [hx] at hy; exact Option.some.inj hy
          exact ⟨_, rfl, by rw [or_bit _ h64, hb]; rfl⟩
      · rintro ⟨y, hy, hb⟩
        obtain rfl := Option.some.inj hy
        rw [or_bit _ h64] at hb
        by_cases hk : k = e
        · rw [hk]; exact .inl rfl
        · rw [decide_eq_false hk, Bool.or_false] at hb
          exact .inr ⟨x, hx, hb⟩
    · rw [if_neg hcc]
      constructor
      · rintro (hk | hk)
        · injection hk with h1 _; exact absurd h1 hcc
        · exact hk
      · exact .inr
  · intro q
    rw [Finset.mem_insert, h.owns]
    simp
  · intro b hb y hy
    have hy' : (if b = s.cur then some { x with used := x.used ||| (1#64 <<< e) } else s.blk b) = some y := hy
    by_cases hcc : b = s.cur
    · rw [if_pos hcc] at hy'
      obtain rfl := Option.some.inj hy'
      intro h0
      have := congrArg (fun v => BitVec.getLsbD v e) h0
      simp only [or_bit _ h64] at this
      simp at this
    · rw [if_neg hcc] at hy'
      exact hne b hb hcc y hy'

/-- The states of programs. -/
def CInvE (s : Cache) (L : Finset Hdr) : Prop := ∃ l, CInv s l L ∧ NoEmpty s l

theorem full_card {s : Cache} {L : Finset Hdr} (h : CInv s l L) (hf : ∀ c ∈ 0 :: l, ∃ x, s.blk c = some x ∧ x.used = BitVec.allOnes 64) : 64 * (0 :: l).length ≤ L.card := by
  have hsub : ((0 :: l).toFinset ×ˢ Finset.range 64).image (fun x => Hdr.entry x.1 x.2) ⊆ L := by
    intro q hq
    obtain ⟨⟨b, e⟩, hbe, rfl⟩ := Finset.mem_image.1 hq
    obtain ⟨hb, he⟩ := Finset.mem_product.1 hbe
    obtain ⟨x, hx, hu⟩ := hf b (List.mem_toFinset.1 hb)
    refine (h.ents _ _).2 ⟨x, hx, ?_⟩
    rw [hu, BitVec.getLsbD_allOnes]
    exact decide_eq_true (Finset.mem_range.1 he)
  have := Finset.card_le_card hsub
  rw [Finset.card_image_of_injective _ (fun x y hxy => by injection hxy with h1 h2; exact Prod.ext h1 h2), Finset.card_product, Finset.card_range,
    List.toFinset_card_of_nodup h.nodup] at this
  omega

theorem malloc_spec {s : Cache} {L : Finset Hdr} (h : CInvE s L) :
    ∃ p s', mzd_t_malloc s = .ok (p, s') ∧ p ∉ L ∧ CInvE s' (insert p L) ∧ ∀ q, p = .own q → 1024 ≤ L.card := by
  obtain ⟨l, h, hne⟩ := h
  obtain ⟨x, hx⟩ := seg_mem h.seg h.cur
  have done : ∀ {s : Cache} {l : List Nat} {x : Blk}, CInv s l L → s.blk s.cur = some x → x.used ≠ BitVec.allOnes 64 → (∀ b ∈ l, b ≠ s.cur → ∀ x, s.blk b = some x → x.used ≠ 0#64) →
      ∃ p s', takeEntry s = .ok (p, s') ∧ p ∉ L ∧ CInvE s' (insert p L) ∧ ∀ q, p = .own q → 1024 ≤ L.card := by
    intro s l x h hx hu hne
    obtain ⟨p, s', e, h1, h2, h3, k, h4⟩ := takeEntry_spec h hx hu hne
    exact ⟨p, s', e, h1, ⟨l, h2, h3⟩, fun q hq => by rw [h4] at hq; exact absurd hq (by simp)⟩
  unfold mzd_t_malloc
  rw [get_some hx, C_ok_bind]
  by_cases hu : x.used = BitVec.allOnes 64
  · rw [if_pos hu]
    obtain ⟨res, e, hr⟩ := notFull_spec h.seg (fuel := s.fresh + 1) (cur := s.cur) (i := 0) (by have := h.length; omega)
    rw [List.head?_cons] at e
    rw [e, C_ok_bind]
    rcases hr with ⟨c, cur', i', rfl, hc, y, hy, hyu⟩ | ⟨rfl, hall⟩
    · exact done (s := { s with cur := c }) ⟨h.seg, h.nodup, h.only, h.lt, h.len, hc, h.ownlt, h.ents, h.owns⟩ hy hyu (fun b hb _ => hne b hb)
    · obtain ⟨xs, a, hxa⟩ : ∃ xs a, 0 :: l = xs ++ [a] := by
        rcases List.eq_nil_or_concat (0 :: l) with h | ⟨xs, a, h⟩
        · exact absurd h (by simp)
        · exact ⟨xs, a, by rw [h, List.concat_eq_append]⟩
      have hlast : (0 :: l).getLast?.getD s.cur = a := by rw [hxa]; simp
      rw [hlast]
      simp only []
      have ha : a ∈ 0 :: l := by rw [hxa]; simp
      have hfr : s.fresh ∉ 0 :: l := fun hm => absurd (h.lt _ hm) (by omega)
      have hfa : a ≠ s.fresh := fun hm => hfr (hm ▸ ha)
      by_cases hi : 0 + (0 :: l).length < 16
      · rw [if_pos hi]
        obtain ⟨y, hy⟩ := seg_mem h.seg ha
        rw [get_some (x := y) (by show (if a = s.fresh then _ else s.blk a) = _; rw [if_neg hfa, hy]), C_ok_bind,
          set_some (x := y) (by show (if a = s.fresh then _ else s.blk a) = _; rw [if_neg hfa, hy]), C_ok_bind]
        simp only [Nat.add_sub_cancel]
        have hblk : ∀ b, b ≠ a → b ≠ s.fresh → (if b = a then some { y with next := some s.fresh } else if b = s.fresh then some ⟨some a, none, 0#64⟩ else s.blk b) = s.blk b := fun b h1 h2 => by
          rw [if_neg h1, if_neg h2]
        have hnf : s.blk s.fresh = none := by
          by_contra hc
          exact hfr (h.only _ hc)
        refine done (l := l ++ [s.fresh]) (x := ⟨some a, none, 0#64⟩) ⟨?_, ?_, ?_, ?_, ?_, ?_, ?_, ?_, ?_⟩ ?_ (show (0#64 : BitVec 64) ≠ BitVec.allOnes 64 by decide) ?_
        · rw [← List.cons_append, hxa, seg_join]
          have hnd := h.nodup
          rw [hxa] at hnd
          refine ⟨seg_setLast (blk := s.blk) (x := y) (n := none) (by rw [← hxa]; exact h.seg) hy (fun c hc => ?_) (if_pos rfl), ⟨0#64, ?_⟩, trivial⟩
          · refine hblk c (fun hca => ?_) (fun hcf => hfr ?_)
            · rw [hca] at hc
              exact (List.nodup_append.1 hnd).2.2 a hc a (by simp) rfl
            · rw [← hcf, hxa]; simp [hc]
          · show (if s.fresh = a then _ else if s.fresh = s.fresh then _ else _) = _
            rw [if_neg (Ne.symm hfa), if_pos rfl]; rfl
        · rw [← List.cons_append]
          exact List.nodup_append.2 ⟨h.nodup, by simp, fun b hb c hc => by
            rw [List.mem_singleton.1 hc]; rintro rfl; exact hfr hb⟩
        · intro b hb
          rw [← List.cons_append, List.mem_append, List.mem_singleton]
          by_cases h1 : b = s.fresh
          · exact .inr h1
          · by_cases h2 : b = a
            · rw [h2]; exact .inl ha
            · exact .inl (h.only b fun hn => hb ((hblk b h2 h1).trans hn))
        · intro b hb
          rw [← List.cons_append, List.mem_append, List.mem_singleton] at hb
          show b < s.fresh + 1
          rcases hb with hb | rfl
          · have := h.lt b hb; omega
          · omega
        · rw [List.length_append]; simp at hi ⊢; omega
        · rw [← List.cons_append]; simp
        · intro q hq
          have := h.ownlt q hq
          show q < s.fresh + 1
          omega
        · intro b k
          rw [h.ents]
          show _ ↔ ∃ z, (if b = a then some { y with next := some s.fresh } else if b = s.fresh then some ⟨some a, none, 0#64⟩ else s.blk b) = some z ∧ _
          by_cases h2 : b = a
          · subst h2
            rw [if_pos rfl]
            constructor
            · rintro ⟨z, hz, hb⟩
              obtain rfl : y = z := by rw [hy] at hz; exact Option.some.inj hz
              exact ⟨_, rfl, hb⟩
            · rintro ⟨z, hz, hb⟩
              obtain rfl := Option.some.inj hz
              exact ⟨y, hy, hb⟩
          · by_cases h1 : b = s.fresh
            · subst h1
              rw [if_neg h2, if_pos rfl]
              constructor
              · rintro ⟨z, hz, _⟩; rw [hnf] at hz; exact absurd hz (by simp)
              · rintro ⟨z, hz, hb⟩
                obtain rfl := Option.some.inj hz
                simp at hb
            · rw [hblk b h2 h1]
        · exact h.owns
        · show (if s.fresh = a then _ else if s.fresh = s.fresh then _ else _) = _
          rw [if_neg (Ne.symm hfa), if_pos rfl]
        · intro b hb hbf z hz
          have hbl : b ∈ l := by
            rcases List.mem_append.1 hb with hb | hb
            · exact hb
            · exact absurd (List.mem_singleton.1 hb) hbf
          have hz' : (if b = a then some { y with next := some s.fresh } else if b = s.fresh then some ⟨some a, none, 0#64⟩ else s.blk b) = some z := hz
          by_cases h2 : b = a
          · subst h2
            rw [if_pos rfl] at hz'
            obtain rfl := Option.some.inj hz'
            exact hne b hbl y hy
          · rw [hblk b h2 hbf] at hz'
            exact hne b hbl z hz'
      · rw [if_neg hi]
        have hcard := full_card h hall
        have hlen := h.len
        refine ⟨_, _, rfl, ?_, ⟨l, ⟨h.seg, h.nodup, h.only, fun b hb => ?_, h.len, ha, fun q hq => ?_, fun b k => ?_, fun q => ?_⟩, hne⟩, fun q _ => by omega⟩
        · rw [h.owns]
          intro ho
          exact absurd (h.ownlt _ ho) (by omega)
        · have := h.lt b hb
          show b < s.fresh + 1
          omega
        · have hq' : (if q = s.fresh then true else s.own q) = true := hq
          show q < s.fresh + 1
          by_cases hqf : q = s.fresh
          · omega
          · rw [if_neg hqf] at hq'
            have := h.ownlt q hq'; omega
        · rw [Finset.mem_insert, h.ents]; simp
        · rw [Finset.mem_insert, h.owns]
          show _ ↔ (if q = s.fresh then true else s.own q) = true
          by_cases hqf : q = s.fresh
          · rw [if_pos hqf, hqf]; simp
          · rw [if_neg hqf]; simp [hqf]
  · rw [if_neg hu]
    exact done h hx hu (fun b hb _ => hne b hb)

/-! ## Giving headers back -/

/-- What happens at the block of a header. -/
def foundAt (s : Cache) (b e : Nat) : C (Option Cache) := do
  let x ← s.get b
  let u := x.used &&& ~~~(1#64 <<< e)
  let s ← s.set b { x with used := u }
  if u = 0#64 then do pure (some (← dropBlock s b)) else pure (some s)

theorem freeIn_own {s : Cache} {q : Nat} (hs : Seg s.blk p ys none) : ∀ {fuel : Nat}, ys.length < fuel → freeIn s (.own q) fuel ys.head? = .ok none := by
  induction ys generalizing p with
  | nil =>
    intro fuel hf
    obtain ⟨f, rfl⟩ : ∃ f, fuel = f + 1 := ⟨fuel - 1, by omega⟩
    rfl
  | cons c ys ih =>
    intro fuel hf
    obtain ⟨f, rfl⟩ : ∃ f, fuel = f + 1 := ⟨fuel - 1, by omega⟩
    obtain ⟨⟨u, e⟩, h2⟩ := hs
    rw [Option.or_none] at e
    rw [List.head?_cons, freeIn, get_some e, C_ok_bind]
    exact ih h2 (by simp at hf; omega)

theorem freeIn_entry {s : Cache} {b k : Nat} (hk : k < 64) (hs : Seg s.blk p ys none) (hb : b ∈ ys) : ∀ {fuel : Nat}, ys.length < fuel → freeIn s (.entry b k) fuel ys.head? = foundAt s b k := by
  induction ys generalizing p with
  | nil => simp at hb
  | cons c ys ih =>
    intro fuel hf
    obtain ⟨f, rfl⟩ : ∃ f, fuel = f + 1 := ⟨fuel - 1, by omega⟩
    obtain ⟨⟨u, e⟩, h2⟩ := hs
    rw [Option.or_none] at e
    rw [List.head?_cons, freeIn]
    by_cases hbc : b = c
    · subst hbc
      unfold foundAt
      refine bind_congr fun x => ?_
      simp only []
      rw [if_pos ⟨trivial, hk⟩]
    · rw [get_some e, C_ok_bind]
      simp only []
      rw [if_neg (fun h => hbc h.1)]
      refine ih h2 ?_ (by simp at hf; omega)
      rcases List.mem_cons.1 hb with h | h
      · exact absurd h hbc
      · exact h

theorem clear_bit (u : BitVec 64) {e k : Nat} (he : e < 64) : (u &&& ~~~(1#64 <<< e)).getLsbD k = (u.getLsbD k && decide (k ≠ e)) := by
  by_cases hk : k < 64
  · rw [BitVec.getLsbD_and, BitVec.getLsbD_not, BitVec.getLsbD_shiftLeft, BitVec.getLsbD_one]
    by_cases h : k = e
    · subst h; simp [he]
    · by_cases h1 : k < e
      · simp [h1, hk, h]
      · have : ¬ k - e = 0 := by omega
        simp [this, hk, h]
  · rw [BitVec.getLsbD_of_ge _ _ (by omega), BitVec.getLsbD_of_ge _ _ (by omega)]; rfl

theorem free_own {s : Cache} {L : Finset Hdr} {q : Nat} (h : CInvE s L) (hq : .own q ∈ L) : ∃ s', mzd_t_free (.own q) s = .ok s' ∧ CInvE s' (L.erase (.own q)) := by
  obtain ⟨l, h, hne⟩ := h
  unfold mzd_t_free
  have e := freeIn_own (q := q) h.seg (fuel := s.fresh + 1) (by have := h.length; omega)
  rw [List.head?_cons] at e
  rw [e, C_ok_bind]
  simp only []
  rw [if_pos ((h.owns q).1 hq)]
  refine ⟨_, rfl, l, ⟨h.seg, h.nodup, h.only, h.lt, h.len, h.cur, fun r hr => ?_, fun b k => ?_, fun r => ?_⟩, hne⟩
  · have hr' : (if r = q then false else s.own r) = true := hr
    by_cases hrq : r = q
    · rw [if_pos hrq] at hr'; exact absurd hr' (by simp)
    · rw [if_neg hrq] at hr'; exact h.ownlt r hr'
  · rw [Finset.mem_erase, h.ents]; simp
  · rw [Finset.mem_erase, h.owns]
    show _ ↔ (if r = q then false else s.own r) = true
    by_cases hrq : r = q
    · rw [if_pos hrq, hrq]; simp
    · rw [if_neg hrq]; simp [hrq]

theorem free_entry {s : Cache} {L : Finset Hdr} {b e : Nat} (h : CInvE s L) (hq : .entry b e ∈ L) : ∃ s', mzd_t_free (.entry b e) s = .ok s' ∧ CInvE s' (L.erase (.entry b e)) := by
  obtain ⟨l, h, hne⟩ := h
  obtain ⟨x, hx, hbit⟩ := (h.ents b e).1 hq
  have he : e < 64 := by
    by_contra hc
    rw [BitVec.getLsbD_of_ge _ _ (by omega)] at hbit; exact absurd hbit (by simp)
  have hbl : b ∈ 0 :: l := h.only b (by rw [hx]; simp)
  unfold mzd_t_free
  have e1 := freeIn_entry he h.seg hbl (fuel := s.fresh + 1) (by have := h.length; omega)
  rw [List.head?_cons] at e1
  rw [e1]
  unfold foundAt
  rw [get_some hx, C_ok_bind]
  simp only []
  rw [set_some hx, C_ok_bind]
  -- the state after the bit is cleared
  generalize hS : ({ s with blk := fun k => if k = b then some { x with used := x.used &&& ~~~(1#64 <<< e) } else s.blk k } : Cache) = S
  have hblk : ∀ k, S.blk k = if k = b then some { x with used := x.used &&& ~~~(1#64 <<< e) } else s.blk k := fun k => by rw [← hS]
  have hSb : S.blk b = some { x with used := x.used &&& ~~~(1#64 <<< e) } := by rw [hblk, if_pos rfl]
  have hcur : S.cur = s.cur := by rw [← hS]
  have hown : S.own = s.own := by rw [← hS]
  have hfresh : S.fresh = s.fresh := by rw [← hS]
  have hI : CInv S l (L.erase (.entry b e)) := by
    refine ⟨?_, h.nodup, ?_, by rw [hfresh]; exact h.lt, h.len, by rw [hcur]; exact h.cur, by rw [hfresh, hown]; exact h.ownlt, fun k i => ?_, fun r => ?_⟩
    · refine seg_used h.seg fun c hc y hy => ?_
      rw [hblk]
      by_cases hcb : c = b
      · subst hcb
        obtain rfl : x = y := by rw [hx] at hy; exact Option.some.inj hy
        exact ⟨_, if_pos rfl⟩
      · exact ⟨y.used, by rw [if_neg hcb, hy]⟩
    · intro k hk
      rw [hblk] at hk
      by_cases hkb : k = b
      · rw [hkb]; exact hbl
      · rw [if_neg hkb] at hk; exact h.only k hk
    · rw [Finset.mem_erase, h.ents, hblk]
      by_cases hkb : k = b
      · subst hkb
        rw [if_pos rfl]
        constructor
        · rintro ⟨h1, y, hy, hb⟩
          obtain rfl : x = y := by rw [hx] at hy; exact Option.some.inj hy
          refine ⟨_, rfl, ?_⟩
          show (x.used &&& ~~~(1#64 <<< e)).getLsbD i = true
          rw [clear_bit _ he, hb, Bool.true_and]
          exact decide_eq_true fun hie => h1 (by rw [hie])
        · rintro ⟨y, hy, hb⟩
          obtain rfl := Option.some.inj hy
          have hb' : (x.used &&& ~~~(1#64 <<< e)).getLsbD i = true := hb
          rw [clear_bit _ he, Bool.and_eq_true] at hb'
          exact ⟨fun hh => by injection hh with _ h2; exact of_decide_eq_true hb'.2 h2, x, hx, hb'.1⟩
      · rw [if_neg hkb]
        constructor
        · exact fun hh => hh.2
        · exact fun hh => ⟨fun h3 => by injection h3 with h1 _; exact hkb h1, hh⟩
    · rw [Finset.mem_erase, h.owns, hown]; simp
  have hnb : ∀ k ∈ l, k ≠ b → ∀ y, S.blk k = some y → y.used ≠ 0#64 := fun k hk hkb y hy => by
    rw [hblk, if_neg hkb] at hy
    exact hne k hk y hy
  by_cases hu : x.used &&& ~~~(1#64 <<< e) = 0#64
  swap
  · rw [if_neg hu]
    refine ⟨S, rfl, l, hI, fun k hk y hy => ?_⟩
    by_cases hkb : k = b
    · subst hkb
      rw [hSb] at hy
      obtain rfl := Option.some.inj hy
      exact hu
    · exact hnb k hk hkb y hy
  rw [if_pos hu]
  have hempty : ∀ i, .entry b i ∉ L.erase (.entry b e) := fun i hm => by
    obtain ⟨y, hy, hb⟩ := (hI.ents b i).1 hm
    rw [hSb] at hy
    obtain rfl := Option.some.inj hy
    rw [hu] at hb; simp at hb
  generalize L.erase (.entry b e) = L' at hI hempty
  clear e1 hq hblk hS hcur hown hfresh
  unfold dropBlock
  by_cases hb0 : b = 0
  · rw [if_pos hb0]
    subst hb0
    refine ⟨_, rfl, l, ⟨hI.seg, hI.nodup, hI.only, hI.lt, hI.len, List.mem_cons_self, hI.ownlt, hI.ents, hI.owns⟩, fun k hk => ?_⟩
    exact hnb k hk fun hk0 => (List.nodup_cons.1 h.nodup).1 (hk0 ▸ hk)
  rw [if_neg hb0]
  obtain ⟨pre', ys, hl⟩ : ∃ pre' ys, l = pre' ++ b :: ys := by
    rcases List.mem_cons.1 hbl with h | h
    · exact absurd h hb0
    · exact List.append_of_mem h
  obtain ⟨xs, a, hxa⟩ : ∃ xs a, 0 :: pre' = xs ++ [a] := by
    rcases List.eq_nil_or_concat (0 :: pre') with h | ⟨xs, a, h⟩
    · exact absurd h (by simp)
    · exact ⟨xs, a, by rw [h, List.concat_eq_append]⟩
  have hfull : 0 :: l = xs ++ [a] ++ (b :: ys) := by rw [hl, ← List.cons_append, hxa]
  have hseg := hI.seg
  have hnd := hI.nodup
  rw [hfull] at hseg hnd
  obtain ⟨s1, ⟨u, eb⟩, s2⟩ := seg_join.1 hseg
  rw [Option.or_none] at eb
  rw [List.head?_cons, Option.some_or] at s1
  have hd := List.nodup_append.1 hnd
  have hd1 := List.nodup_append.1 hd.1
  have hd2 := List.nodup_cons.1 hd.2.1
  have hab : a ≠ b := hd.2.2 a (by simp) b (by simp)
  have haxs : a ∉ xs := fun hm => hd1.2.2 a hm a (by simp) rfl
  have hays : a ∉ ys := fun hm => hd.2.2 a (by simp) a (by simp [hm]) rfl
  have hbxs : b ∉ xs := fun hm => hd.2.2 b (by simp [hm]) b (by simp) rfl
  have hxy : ∀ k ∈ xs, k ∉ ys := fun k h1 h2 => hd.2.2 k (by simp [h1]) k (by simp [h2]) rfl
  obtain ⟨y, hy⟩ := seg_mem s1 (c := a) (by simp)
  rw [get_some eb, C_ok_bind]
  simp only []
  generalize hS' : (if b = S.cur then { S with cur := a } else S) = S'
  have hblk' : S'.blk = S.blk := by rw [← hS']; split <;> rfl
  have hown' : S'.own = S.own := by rw [← hS']; split <;> rfl
  have hfresh' : S'.fresh = S.fresh := by rw [← hS']; split <;> rfl
  have hcur' : S'.cur ∈ xs ++ [a] ++ ys := by
    rw [← hS']
    split
    · simp
    · rename_i hnc
      have := hI.cur
      rw [hfull] at this
      simp only [List.mem_append, List.mem_cons] at this ⊢
      rcases this with h | h | h
      · exact .inl h
      · exact absurd h.symm hnc
      · exact .inr h
  rw [get_some (s := S') (x := y) (by rw [hblk', hy]), C_ok_bind, set_some (s := S') (x := y) (by rw [hblk', hy]), C_ok_bind]
  -- both cases give the same kind of state
  have fin : ∀ T : Cache, T.own = S.own → T.fresh = S.fresh → T.cur = S'.cur → (∀ k ∉ ys, k ≠ b → k ≠ a → T.blk k = S.blk k) → T.blk b = none → T.blk a = some { y with next := ys.head? } →
      (∀ k ∈ ys, ∀ z, S.blk k = some z → ∃ z', T.blk k = some z' ∧ z'.used = z.used) → Seg T.blk (some a) ys none → CInvE T L' := by
    intro T t1 t2 t3 t4 t5 t6 t7 t8
    have hmem : ∀ k, k ∈ 0 :: (pre' ++ ys) ↔ k ∈ xs ++ [a] ++ ys := fun k => by rw [← List.cons_append, hxa]
    have husd : ∀ k, k ≠ b → (∀ z, S.blk k = some z → ∃ z', T.blk k = some z' ∧ z'.used = z.used) := fun k hkb z hz => by
      by_cases hk1 : k ∈ ys
      · exact t7 k hk1 z hz
      · by_cases hk2 : k = a
        · subst hk2
          obtain rfl : y = z := by rw [hy] at hz; exact Option.some.inj hz
          exact ⟨_, t6, rfl⟩
        · exact ⟨z, (t4 k hk1 hkb hk2).trans hz, rfl⟩
    have husd' : ∀ k, ∀ z', T.blk k = some z' → k ≠ b ∧ ∃ z, S.blk k = some z ∧ z'.used = z.used := fun k z' hz' => by
      have hkb : k ≠ b := fun hkb => by rw [hkb, t5] at hz'; exact absurd hz' (by simp)
      have : ∃ z, S.blk k = some z := by
        by_cases hk1 : k ∈ ys
        · exact seg_mem s2 hk1
        · by_cases hk2 : k = a
          · exact ⟨y, hk2 ▸ hy⟩
          · rw [t4 k hk1 hkb hk2] at hz'; exact ⟨z', hz'⟩
      obtain ⟨z, hz⟩ := this
      obtain ⟨w, hw, hwu⟩ := husd k hkb z hz
      obtain rfl : z' = w := by rw [hz'] at hw; exact Option.some.inj hw
      exact ⟨hkb, z, hz, hwu⟩
    refine ⟨pre' ++ ys, ⟨?_, ?_, ?_, ?_, ?_, ?_, ?_, ?_, ?_⟩, ?_⟩
    · rw [← List.cons_append, hxa, seg_join]
      refine ⟨seg_setLast s1 hy (fun c hc => ?_) (by rw [t6, Option.or_none]), t8⟩
      exact t4 c (hxy c hc) (fun h => hbxs (h ▸ hc)) (fun h => haxs (h ▸ hc))
    · rw [← List.cons_append, hxa]
      exact List.nodup_append.2 ⟨hd.1, hd2.2, fun k hk c hc => hd.2.2 k hk c (List.mem_cons_of_mem _ hc)⟩
    · intro k hk
      obtain ⟨z', hz'⟩ := Option.ne_none_iff_exists'.1 hk
      obtain ⟨hkb, z, hz, _⟩ := husd' k z' hz'
      have := hI.only k (by rw [hz]; simp)
      rw [hfull] at this
      rw [hmem]
      simp only [List.mem_append, List.mem_cons] at this ⊢
      rcases this with h | h | h
      · exact .inl h
      · exact absurd h hkb
      · exact .inr h
    · intro k hk
      rw [t2]
      refine hI.lt k ?_
      rw [hmem] at hk
      rw [hfull]
      simp only [List.mem_append, List.mem_cons] at hk ⊢
      tauto
    · have := hI.len
      rw [hl] at this
      simp at this ⊢; omega
    · rw [t3, hmem]; exact hcur'
    · rw [t1, t2]; exact hI.ownlt
    · intro k i
      rw [hI.ents]
      constructor
      · rintro ⟨z, hz, hb⟩
        have hkb : k ≠ b := fun hkb => hempty i (by rw [← hkb]; exact (hI.ents k i).2 ⟨z, hz, hb⟩)
        obtain ⟨z', hz', hu'⟩ := husd k hkb z hz
        exact ⟨z', hz', by rw [hu']; exact hb⟩
      · rintro ⟨z', hz', hb⟩
        obtain ⟨_, z, hz, hu'⟩ := husd' k z' hz'
        exact ⟨z, hz, by rw [← hu']; exact hb⟩
    · rw [t1]; exact hI.owns
    · intro k hk z' hz'
      obtain ⟨hkb, z, hz, hu'⟩ := husd' k z' hz'
      rw [hu']
      refine hnb k ?_ hkb z hz
      rw [hl]
      simp only [List.mem_append, List.mem_cons] at hk ⊢
      tauto
  cases ys with
  | nil =>
    simp only [List.head?_nil]
    refine ⟨_, rfl, fin _ hown' hfresh' rfl ?_ ?_ ?_ ?_ trivial⟩
    · intro k _ h1 h2
      show (if k = b then none else if k = a then _ else S'.blk k) = _
      rw [if_neg h1, if_neg h2, hblk']
    · exact if_pos rfl
    · show (if a = b then none else if a = a then _ else S'.blk a) = _
      rw [if_neg hab, if_pos rfl]; rfl
    · intro k hk; simp at hk
  | cons c ys =>
    simp only [List.head?_cons]
    obtain ⟨⟨uc, ec⟩, s3⟩ := s2
    have hca : c ≠ a := fun h => hays (by rw [h]; simp)
    have hcb : c ≠ b := fun h => hd2.1 (by rw [h]; simp)
    have hcys := (List.nodup_cons.1 hd2.2).1
    have g1 : (if c = a then some { y with next := some c } else S'.blk c) = some ⟨some b, ys.head?.or none, uc⟩ := by rw [if_neg hca, hblk', ec]
    rw [get_some (s := { S' with blk := fun k => if k = a then some { y with next := some c } else S'.blk k }) g1, C_ok_bind,
      set_some (s := { S' with blk := fun k => if k = a then some { y with next := some c } else S'.blk k }) g1]
    have cell : ∀ k, k ≠ b → (if k = b then none else if k = c then some (⟨some a, ys.head?.or none, uc⟩ : Blk) else if k = a then some { y with next := some c } else S'.blk k) =
        if k = c then some (⟨some a, ys.head?.or none, uc⟩ : Blk) else if k = a then some { y with next := some c } else S.blk k := fun k hk => by rw [if_neg hk, hblk']
    refine ⟨_, rfl, fin _ hown' hfresh' rfl ?_ ?_ ?_ ?_ ?_⟩
    · intro k hk h1 h2
      refine (cell k h1).trans ?_
      rw [if_neg (fun h => hk (by rw [h]; simp)), if_neg h2]
    · exact if_pos rfl
    · refine (cell a hab).trans ?_
      rw [if_neg (Ne.symm hca), if_pos rfl]; rfl
    · intro k hk z hz
      have hkb : k ≠ b := fun h => hd2.1 (h ▸ hk)
      have hka : k ≠ a := fun h => hays (h ▸ hk)
      by_cases hkc : k = c
      · subst hkc
        rw [ec] at hz
        obtain rfl := Option.some.inj hz
        exact ⟨_, (cell k hkb).trans (if_pos rfl), rfl⟩
      · exact ⟨z, (cell k hkb).trans (by rw [if_neg hkc, if_neg hka, hz]), rfl⟩
    · refine ⟨⟨uc, (cell c hcb).trans (if_pos rfl)⟩, seg_congr s3 fun k hk => ?_⟩
      have hk' : k ∈ c :: ys := List.mem_cons_of_mem _ hk
      refine (cell k fun (h : k = b) => hd2.1 (h ▸ hk')).trans ?_
      rw [if_neg (fun h : k = c => hcys (h ▸ hk)), if_neg (fun h : k = a => hays (h ▸ hk'))]

theorem start_inv : CInvE .start ∅ := by
  refine ⟨[], ⟨⟨⟨0#64, rfl⟩, trivial⟩, by simp, fun b hb => ?_, fun b hb => ?_, by simp, List.mem_cons_self, fun q hq => ?_, fun b e => ?_, fun q => ?_⟩, fun b hb => by simp at hb⟩
  · by_contra hc
    exact hb (if_neg (by simpa using hc))
  · rw [List.mem_singleton.1 hb]; exact Nat.one_pos
  · exact absurd hq (by simp [Cache.start])
  · constructor
    · intro h; simp at h
    · rintro ⟨x, hx, hb⟩
      have hx' : (if b = 0 then some (⟨none, none, 0#64⟩ : Blk) else none) = some x := hx
      split at hx'
      · obtain rfl := Option.some.inj hx'; simp at hb
      · exact absurd hx' (by simp)
  · constructor
    · intro h; simp at h
    · intro h; exact absurd h (by simp [Cache.start])

theorem Holds.inv {s : Cache} {L : Finset Hdr} (h : Holds s L) : CInvE s L := by
  induction h with
  | start => exact start_inv
  | malloc _ e ih =>
    obtain ⟨p, s', e', _, h, _⟩ := malloc_spec ih
    rw [e] at e'
    obtain ⟨rfl, rfl⟩ : _ = p ∧ _ = s' := by simpa using e'
    exact h
  | @free s s' L p _ hp e ih =>
    cases p with
    | entry b k =>
      obtain ⟨s', e', h⟩ := free_entry ih hp
      rw [e] at e'
      obtain rfl : _ = s' := by simpa using e'
      exact h
    | own q =>
      obtain ⟨s', e', h⟩ := free_own ih hp
      rw [e] at e'
      obtain rfl : _ = s' := by simpa using e'
      exact h

/-! ## The cache of blocks -/

structure BInv (th : Nat) (s : Mmc) (L : Nat → Option Nat) : Prop where
  client : ∀ p n, L p = some n → s.sys.live p = some n ∧ 0 < n
  slot : ∀ i < 16, s.size i ≠ 0 → s.sys.live (s.data i) = some (s.size i) ∧ L (s.data i) = none ∧ s.size i < th
  inj : ∀ i < 16, ∀ k < 16, s.size i ≠ 0 → s.size k ≠ 0 → s.data i = s.data k → i = k
  cover : ∀ p n, s.sys.live p = some n → L p = some n ∨ ∃ i < 16, s.size i ≠ 0 ∧ s.data i = p
  lt : ∀ p, s.sys.live p ≠ none → 0 < p ∧ p < s.sys.next
  next : 0 < s.sys.next
  j : s.j < 16

theorem find_some {s : Mmc} {n i : Nat} (h : s.find n = some i) : i < 16 ∧ s.size i = n :=
  ⟨List.mem_range.1 (List.mem_of_find?_eq_some h), by simpa using List.find?_some h⟩

theorem find_none {s : Mmc} {n : Nat} (h : s.find n = none) : ∀ i < 16, s.size i ≠ n := fun i hi => by
  have := List.find?_eq_none.1 h i (List.mem_range.2 hi)
  simpa using this

variable {th : Nat} {s : Mmc} {L : Nat → Option Nat}

theorem sysMalloc_inv (h : BInv th s L) {k : Nat} (hk : 0 < k) :
    L s.sys.next = none ∧ BInv th { s with sys := ⟨fun p => if p = s.sys.next then some k else s.sys.live p, s.sys.next + 1⟩ } (fun q => if q = s.sys.next then some k else L q) := by
  have hn : s.sys.live s.sys.next = none := by
    by_contra hc
    exact absurd (h.lt _ hc).2 (by omega)
  have hL : L s.sys.next = none := by
    by_contra hc
    obtain ⟨m, hm⟩ := Option.ne_none_iff_exists'.1 hc
    rw [(h.client _ _ hm).1] at hn; exact absurd hn (by simp)
  refine ⟨hL, ?_, ?_, h.inj, ?_, ?_, Nat.succ_pos _, h.j⟩
  · intro p m hm
    show (if p = s.sys.next then some k else s.sys.live p) = _ ∧ _
    by_cases hp : p = s.sys.next
    · rw [if_pos hp] at hm ⊢
      exact ⟨hm, by rw [← Option.some.inj hm]; exact hk⟩
    · rw [if_neg hp] at hm ⊢
      exact h.client p m hm
  · intro i hi h0
    have := h.slot i hi h0
    have hne : s.data i ≠ s.sys.next := fun e => by rw [e, hn] at this; exact absurd this.1 (by simp)
    show (if s.data i = s.sys.next then some k else s.sys.live (s.data i)) = _ ∧ (if s.data i = s.sys.next then some k else L (s.data i)) = _ ∧ _
    rw [if_neg hne, if_neg hne]; exact this
  · intro p m hm
    have hm' : (if p = s.sys.next then some k else s.sys.live p) = some m := hm
    by_cases hp : p = s.sys.next
    · rw [if_pos hp] at hm' ⊢; exact .inl hm'
    · rw [if_neg hp] at hm' ⊢; exact h.cover p m hm'
  · intro p hp
    have hp' : (if p = s.sys.next then some k else s.sys.live p) ≠ none := hp
    show 0 < p ∧ p < s.sys.next + 1
    have := h.next
    by_cases hpn : p = s.sys.next
    · omega
    · rw [if_neg hpn] at hp'
      have := h.lt p hp'; omega

theorem mmc_malloc_spec (h : BInv th s L) {k : Nat} (hk : 0 < k) :
    ∃ p s', m4ri_mmc_malloc th k s = (p, s') ∧ p ≠ 0 ∧ L p = none ∧ BInv th s' (fun q => if q = p then some k else L q) := by
  have sysc : ∃ p s', (let (p, sys) := m4ri_mm_malloc k s.sys; ((p, { s with sys := sys }) : Nat × Mmc)) = (p, s') ∧ p ≠ 0 ∧ L p = none ∧ BInv th s' (fun q => if q = p then some k else L q) := by
    obtain ⟨h1, h2⟩ := sysMalloc_inv h hk
    exact ⟨_, _, rfl, by have := h.next; omega, h1, h2⟩
  unfold m4ri_mmc_malloc
  by_cases ht : k ≤ th
  · rw [if_pos ht]
    cases hf : s.find k with
    | none => simp only []; rw [if_neg (by simp)]; exact sysc
    | some i =>
      obtain ⟨hi, hsz⟩ := find_some hf
      have h0 : s.size i ≠ 0 := by omega
      have hs := h.slot i hi h0
      have hp := h.lt (s.data i) (by rw [hs.1]; simp)
      simp only []
      rw [if_pos (by omega)]
      have sz : ∀ m, (s.put i 0 0).size m = if m = i then 0 else s.size m := fun _ => rfl
      have dt : ∀ m, m ≠ i → (s.put i 0 0).data m = s.data m := fun m hm => if_neg hm
      refine ⟨_, _, rfl, by omega, hs.2.1, ?_, ?_, ?_, ?_, h.lt, h.next, h.j⟩
      · intro p m hm
        by_cases hpd : p = s.data i
        · rw [if_pos hpd] at hm
          have := Option.some.inj hm
          rw [hpd, ← this, ← hsz]
          exact ⟨hs.1, by omega⟩
        · rw [if_neg hpd] at hm; exact h.client p m hm
      · intro m hm hm0
        rw [sz] at hm0 ⊢
        have hmi : m ≠ i := fun e => by rw [if_pos e] at hm0; exact hm0 rfl
        rw [if_neg hmi] at hm0 ⊢
        rw [dt m hmi, if_neg (fun e => hmi (h.inj m hm i hi hm0 h0 e))]
        exact h.slot m hm hm0
      · intro a ha b hb ha0 hb0 hab
        rw [sz] at ha0 hb0
        have hai : a ≠ i := fun e => by rw [if_pos e] at ha0; exact ha0 rfl
        have hbi : b ≠ i := fun e => by rw [if_pos e] at hb0; exact hb0 rfl
        rw [if_neg hai] at ha0
        rw [if_neg hbi] at hb0
        rw [dt a hai, dt b hbi] at hab
        exact h.inj a ha b hb ha0 hb0 hab
      · intro p m hm
        by_cases hpd : p = s.data i
        · rw [if_pos hpd]
          rw [hpd] at hm
          have : s.sys.live (s.data i) = some m := hm
          rw [hs.1, hsz] at this
          exact .inl this
        · rw [if_neg hpd]
          rcases h.cover p m hm with hc | ⟨b, hb, hb0, hbp⟩
          · exact .inl hc
          · have hbi : b ≠ i := fun e => hpd (by rw [← hbp, e])
            exact .inr ⟨b, hb, by rw [sz, if_neg hbi]; exact hb0, by rw [dt b hbi]; exact hbp⟩
  · rw [if_neg ht]
    simp only []; rw [if_neg (by simp)]; exact sysc

theorem sysFree_ok {p n : Nat} {t : Sys} (h : t.live p = some n) (hp : 0 < p) : m4ri_mm_free p t = .ok { t with live := fun q => if q = p then none else t.live q } := by
  unfold m4ri_mm_free
  rw [if_neg (by omega), h]; rfl

/-- A block is put into an entry that is empty. -/
theorem put_inv (h : BInv th s L) {i p n : Nat} (hi : i < 16) (h0 : s.size i = 0) (hL : L p = some n) (hn : n < th) : BInv th (s.put i n p) (fun q => if q = p then none else L q) := by
  have hc := h.client p n hL
  have sz : ∀ m, (s.put i n p).size m = if m = i then n else s.size m := fun _ => rfl
  have dt : ∀ m, (s.put i n p).data m = if m = i then p else s.data m := fun _ => rfl
  have nd : ∀ m < 16, s.size m ≠ 0 → s.data m ≠ p := fun m hm hm0 e => by
    have := (h.slot m hm hm0).2.1
    rw [e, hL] at this; exact absurd this (by simp)
  refine ⟨?_, ?_, ?_, ?_, h.lt, h.next, h.j⟩
  · intro q m hm
    by_cases hq : q = p
    · rw [if_pos hq] at hm; exact absurd hm (by simp)
    · rw [if_neg hq] at hm; exact h.client q m hm
  · intro m hm hm0
    rw [sz] at hm0 ⊢
    rw [dt]
    by_cases hmi : m = i
    · rw [if_pos hmi, if_pos hmi, if_pos rfl]; exact ⟨hc.1, rfl, hn⟩
    · rw [if_neg hmi] at hm0
      rw [if_neg hmi, if_neg hmi, if_neg (nd m hm hm0)]; exact h.slot m hm hm0
  · intro a ha b hb ha0 hb0 hab
    rw [sz] at ha0 hb0
    rw [dt, dt] at hab
    by_cases hai : a = i
    · by_cases hbi : b = i
      · omega
      · rw [if_neg hbi] at hb0
        rw [if_pos hai, if_neg hbi] at hab
        exact absurd hab.symm (nd b hb hb0)
    · rw [if_neg hai] at ha0
      by_cases hbi : b = i
      · rw [if_neg hai, if_pos hbi] at hab
        exact absurd hab (nd a ha ha0)
      · rw [if_neg hbi] at hb0
        rw [if_neg hai, if_neg hbi] at hab
        exact h.inj a ha b hb ha0 hb0 hab
  · intro q m hm
    by_cases hq : q = p
    · exact .inr ⟨i, hi, by rw [sz, if_pos rfl]; omega, by rw [dt, if_pos rfl, hq]⟩
    · rw [if_neg hq]
      rcases h.cover q m hm with hc | ⟨b, hb, hb0, hbq⟩
      · exact .inl hc
      · have hbi : b ≠ i := fun e => hb0 (by rw [e, h0])
        exact .inr ⟨b, hb, by rw [sz, if_neg hbi]; exact hb0, by rw [dt, if_neg hbi]; exact hbq⟩

/-- An entry is emptied and its block goes back to the system. -/
theorem evict_inv (h : BInv th s L) {i : Nat} (hi : i < 16) (h0 : s.size i ≠ 0) (d : Nat → Nat) (hd : ∀ m, m ≠ i → d m = s.data m) (j : Nat) (hj : j < 16) :
    BInv th ⟨{ s.sys with live := fun q => if q = s.data i then none else s.sys.live q }, fun k => if k = i then 0 else s.size k, d, j⟩ L := by
  have hs := h.slot i hi h0
  refine ⟨?_, ?_, ?_, ?_, ?_, h.next, hj⟩
  · intro p n hp
    have hpd : p ≠ s.data i := fun e => by rw [e, hs.2.1] at hp; exact absurd hp (by simp)
    show (if p = s.data i then none else s.sys.live p) = _ ∧ _
    rw [if_neg hpd]; exact h.client p n hp
  · intro m hm hm0
    have hm0' : (if m = i then 0 else s.size m) ≠ 0 := hm0
    have hmi : m ≠ i := fun e => by rw [if_pos e] at hm0'; exact hm0' rfl
    rw [if_neg hmi] at hm0'
    show (if d m = s.data i then none else s.sys.live (d m)) = some (if m = i then 0 else s.size m) ∧ L (d m) = none ∧ (if m = i then 0 else s.size m) < th
    rw [if_neg hmi, hd m hmi, if_neg (fun e => hmi (h.inj m hm i hi hm0' h0 e))]
    exact h.slot m hm hm0'
  · intro a ha b hb ha0 hb0 hab
    have ha0' : (if a = i then 0 else s.size a) ≠ 0 := ha0
    have hb0' : (if b = i then 0 else s.size b) ≠ 0 := hb0
    have hai : a ≠ i := fun e => by rw [if_pos e] at ha0'; exact ha0' rfl
    have hbi : b ≠ i := fun e => by rw [if_pos e] at hb0'; exact hb0' rfl
    rw [if_neg hai] at ha0'
    rw [if_neg hbi] at hb0'
    have hab' : d a = d b := hab
    rw [hd a hai, hd b hbi] at hab'
    exact h.inj a ha b hb ha0' hb0' hab'
  · intro p n hp
    have hp' : (if p = s.data i then none else s.sys.live p) = some n := hp
    have hpd : p ≠ s.data i := fun e => by rw [if_pos e] at hp'; exact absurd hp' (by simp)
    rw [if_neg hpd] at hp'
    rcases h.cover p n hp' with hc | ⟨b, hb, hb0, hbp⟩
    · exact .inl hc
    · have hbi : b ≠ i := fun e => hpd (by rw [← hbp, e])
      refine .inr ⟨b, hb, ?_, ?_⟩
      · show (if b = i then 0 else s.size b) ≠ 0
        rw [if_neg hbi]; exact hb0
      · show d b = p
        rw [hd b hbi]; exact hbp
  · intro p hp
    have hp' : (if p = s.data i then none else s.sys.live p) ≠ none := hp
    refine h.lt p ?_
    intro hn
    apply hp'
    rw [hn, ite_self]

theorem mmc_free_spec (h : BInv th s L) {p n : Nat} (hL : L p = some n) : ∃ s', m4ri_mmc_free th p n s = .ok s' ∧ BInv th s' (fun q => if q = p then none else L q) := by
  have hc := h.client p n hL
  have hp := h.lt p (by rw [hc.1]; simp)
  unfold m4ri_mmc_free
  by_cases ht : n < th
  · rw [if_pos ht]
    cases hf : s.find 0 with
    | some i =>
      obtain ⟨hi, hsz⟩ := find_some hf
      exact ⟨_, rfl, put_inv h hi hsz hL ht⟩
    | none =>
      have h0 := find_none hf s.j h.j
      have hs := h.slot s.j h.j h0
      have hpos := h.lt (s.data s.j) (by rw [hs.1]; simp)
      simp only []
      rw [sysFree_ok hs.1 hpos.1, C_ok_bind]
      have h1 := evict_inv h h.j h0 s.data (fun _ _ => rfl) ((s.j + 1) % 16) (Nat.mod_lt _ (by decide))
      have h2 := put_inv h1 h.j (if_pos rfl) hL ht
      refine ⟨_, rfl, ?_⟩
      have e : (({ s with sys := { s.sys with live := fun q => if q = s.data s.j then none else s.sys.live q } } : Mmc).put s.j n p) = { s.put s.j n p with
          sys := { s.sys with live := fun q => if q = s.data s.j then none else s.sys.live q } } := rfl
      have e2 : (Mmc.put ⟨{ s.sys with live := fun q => if q = s.data s.j then none else s.sys.live q }, fun k => if k = s.j then 0 else s.size k, s.data, (s.j + 1) % 16⟩ s.j n p) =
          ⟨{ s.sys with live := fun q => if q = s.data s.j then none else s.sys.live q }, fun k => if k = s.j then n else s.size k, fun k => if k = s.j then p else s.data k, (s.j + 1) % 16⟩ := by
        unfold Mmc.put
        congr 1
        funext k
        show (if k = s.j then n else if k = s.j then 0 else s.size k) = _
        by_cases hk : k = s.j
        · rw [if_pos hk, if_pos hk]
        · rw [if_neg hk, if_neg hk, if_neg hk]
      rw [e2] at h2
      exact h2
  · rw [if_neg ht, sysFree_ok hc.1 hp.1, C_ok_bind]
    refine ⟨_, rfl, ?_, ?_, h.inj, ?_, ?_, h.next, h.j⟩
    · intro q m hm
      by_cases hq : q = p
      · rw [if_pos hq] at hm; exact absurd hm (by simp)
      · rw [if_neg hq] at hm
        show (if q = p then none else s.sys.live q) = _ ∧ _
        rw [if_neg hq]; exact h.client q m hm
    · intro m hm hm0
      have := h.slot m hm hm0
      have hmp : s.data m ≠ p := fun e => by rw [e, hL] at this; exact absurd this.2.1 (by simp)
      show (if s.data m = p then none else s.sys.live (s.data m)) = _ ∧ (if s.data m = p then none else L (s.data m)) = none ∧ _
      rw [if_neg hmp, if_neg hmp]; exact this
    · intro q m hm
      have hm' : (if q = p then none else s.sys.live q) = some m := hm
      by_cases hq : q = p
      · rw [if_pos hq] at hm'; exact absurd hm' (by simp)
      · rw [if_neg hq] at hm' ⊢; exact h.cover q m hm'
    · intro q hq
      refine h.lt q fun hn => hq ?_
      show (if q = p then none else s.sys.live q) = none
      rw [hn, ite_self]

theorem mmc_cleanup_spec (h : BInv th s L) : ∃ s', m4ri_mmc_cleanup s = .ok s' ∧ BInv th s' L ∧ (∀ i < 16, s'.size i = 0) := by
  show Ok (m4ri_mmc_cleanup s) _
  unfold m4ri_mmc_cleanup
  refine Ok.forUp (P := fun i t => BInv th t L ∧ ∀ k < i, t.size k = 0) (Nat.zero_le _) ⟨h, fun k hk => by omega⟩ ?_ (fun t ht => ht)
  intro i t _ hi ⟨ht, hz⟩
  have hsz : ∀ k < i + 1, (if k = i then 0 else t.size k) = 0 := fun k hk => by
    by_cases hki : k = i
    · rw [if_pos hki]
    · rw [if_neg hki]; exact hz k (by omega)
  by_cases h0 : t.size i ≠ 0
  · have hs := ht.slot i hi h0
    have hpos := ht.lt (t.data i) (by rw [hs.1]; simp)
    rw [if_pos h0, sysFree_ok hs.1 hpos.1, C_ok_bind, Ok.pure_iff]
    exact ⟨evict_inv ht hi h0 t.data (fun _ _ => rfl) t.j ht.j, hsz⟩
  · rw [if_neg h0]
    show Ok (pure _) _
    rw [Ok.pure_iff]
    refine ⟨?_, hsz⟩
    have : (fun k => if k = i then 0 else t.size k) = t.size := by
      funext k
      by_cases hki : k = i
      · rw [if_pos hki, hki]; exact (not_not.1 h0).symm
      · rw [if_neg hki]
    rw [this]; exact ht

theorem HoldsB.inv (h : HoldsB th s L) : BInv th s L := by
  induction h with
  | start =>
    exact ⟨fun p n hp => by simp at hp, fun i _ h => absurd rfl h, fun i _ k _ h => absurd rfl h, fun p n hp => absurd hp (by simp [Mmc.start]), fun p hp => absurd rfl hp, Nat.one_pos, by decide⟩
  | malloc _ hn e ih =>
    obtain ⟨p, s', e', _, _, h⟩ := mmc_malloc_spec ih hn
    rw [e] at e'
    obtain ⟨rfl, rfl⟩ : _ = p ∧ _ = s' := by simpa using e'
    exact h
  | free _ hp e ih =>
    obtain ⟨s', e', h⟩ := mmc_free_spec ih hp
    rw [e] at e'
    obtain rfl : _ = s' := by simpa using e'
    exact h
  | cleanup _ e ih =>
    obtain ⟨s', e', h, _⟩ := mmc_cleanup_spec ih
    rw [e] at e'
    obtain rfl : _ = s' := by simpa using e'
    exact h

end WB.m4a
