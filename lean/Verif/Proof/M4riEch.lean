import Verif.Proof.M4riUpdate
import Verif.Proof.M4riPivot

/-!
# The loop of `_mzd_echelonize_m4ri` (helper lemmas)
-/
namespace WB.m4w

open WB.cmp (Mem Mem2)

/-- The columns before `c` have been dealt with; the pivots `p 0, …, p (r - 1)` have been found in them. -/
structure EI (M0 : Mzd) (r c : Nat) (p : Nat → Nat) (A : Mzd) : Prop where
  sh : Sh M0 A
  eq : RowEq M0.nrows M0.ncols M0.bit A.bit
  out : ∀ a b, M0.nrows ≤ a ∨ M0.ncols ≤ b → A.bit a b = M0.bit a b
  hr : r ≤ M0.nrows
  hc : c ≤ M0.ncols
  pc : ∀ i < r, p i < c
  mono : ∀ i j, i < j → j < r → p i < p j
  piv : ∀ i < r, ∀ a < M0.nrows, A.bit a (p i) = decide (a = i)
  lead : ∀ i < r, ∀ j < p i, A.bit i j = false
  zero : ∀ a b, r ≤ a → a < M0.nrows → b < c → A.bit a b = false

/-- One round: the next block of columns. -/
theorem EI.block {M0 A X Y : Mzd} {r c kbar kk : Nat} {p : Nat → Nat} (h : EI M0 r c p A) (hc : c + kbar ≤ M0.ncols) (hk : kbar ≤ kk)
    (g : GS A r c kbar X) (hr : r + kbar ≤ M0.nrows) (hz : kbar < kk → ∀ a, r + kbar ≤ a → a < M0.nrows → ∀ l ≤ kbar, X.bit a (c + l) = false)
    (u : BlockUpd X r c kbar kk Y) : EI M0 (r + kbar) (c + kbar) (fun i => if i < r then p i else c + (i - r)) Y := by
  have gn : A.nrows = M0.nrows := h.sh.nrows
  have gc : A.ncols = M0.ncols := h.sh.ncols
  have xn : X.nrows = M0.nrows := by rw [g.sh.nrows, gn]
  have xc : X.ncols = M0.ncols := by rw [g.sh.ncols, gc]
  have gout := g.out
  have gleft := g.left
  rw [gn, gc] at gout
  rw [gn] at gleft
  have hu := u.2
  rw [xn, xc] at hu
  -- the columns of the block
  have hcol : ∀ a < M0.nrows, ∀ l < kbar, Y.bit a (c + l) = decide (a = r + l) := by
    intro a ha l hl
    rw [hu]
    by_cases hin : r ≤ a ∧ a < r + kbar
    · rw [decide_eq_false (by omega), Bool.false_and, Bool.xor_false]
      have := g.ident (a - r) (by omega) l hl
      rw [show r + (a - r) = a by omega] at this
      rw [this, decide_eq_decide]
      omega
    · rw [decide_eq_false (show ¬ a = r + l by omega)]
      have hs : xsum kbar (fun l' => X.bit a (c + l') && X.bit (r + l') (c + l)) = X.bit a (c + l) := by
        rw [xsum_congr (g := fun l' => decide (l' = l) && X.bit a (c + l')) fun l' hl' => by rw [g.ident l' hl' l hl, Bool.and_comm], xsum_one hl]
      rw [hs]
      by_cases hcase : a < r ∨ kbar = kk ∧ r + kbar ≤ a ∧ a < M0.nrows
      · rw [decide_eq_true ⟨hcase, by omega, by omega⟩]; simp
      · rw [hz (by omega) a (by omega) ha l (by omega)]; simp
  -- the columns before it
  have hbefore : ∀ a b, b < c → Y.bit a b = X.bit a b := fun a b hb => by rw [hu, decide_eq_false (by omega)]; simp
  have hupper : ∀ a b, a < r → X.bit a b = A.bit a b := fun a b ha => gout a b (.inl ha)
  refine ⟨(h.sh.trans g.sh).trans u.1, ?_, ?_, hr, hc, ?_, ?_, ?_, ?_, ?_⟩
  · refine h.eq.trans ?_
    have e1 := g.eq
    rw [gn, gc] at e1
    refine e1.trans (RowEq.comb (fun a l => decide (a < r ∨ kbar = kk ∧ r + kbar ≤ a) && (decide (r ≤ l ∧ l < r + kbar) && X.bit a (c + (l - r)))) ?_ ?_)
    · intro i _ l _ hil k _
      simp only [Bool.and_eq_true, decide_eq_true_eq] at hil
      rw [decide_eq_false (by omega)]; rfl
    · intro a ha j hj
      rw [hu]
      congr 1
      rw [xsum_congr (n := M0.nrows) (g := fun l => decide (a < r ∨ kbar = kk ∧ r + kbar ≤ a) && (decide (r ≤ l ∧ l < r + kbar) && (X.bit a (c + (l - r)) && X.bit l j)))
        fun l _ => by rw [Bool.and_assoc, Bool.and_assoc], xsum_and]
      have hsum : xsum M0.nrows (fun l => decide (r ≤ l ∧ l < r + kbar) && (X.bit a (c + (l - r)) && X.bit l j)) = xsum kbar fun l => X.bit a (c + l) && X.bit (r + l) j := by
        have e : M0.nrows = r + (kbar + (M0.nrows - r - kbar)) := by omega
        rw [e, xsum_add, xsum_congr (n := r) (g := fun _ => false) fun l hl => by rw [decide_eq_false (by omega)]; rfl, xsum_false, Bool.false_xor, xsum_add,
          xsum_congr (n := M0.nrows - r - kbar) (g := fun _ => false) fun l hl => by rw [decide_eq_false (by omega)]; rfl, xsum_false, Bool.xor_false]
        refine xsum_congr fun l hl => ?_
        rw [decide_eq_true (by omega), Bool.true_and, show r + l - r = l by omega]
      rw [hsum]
      by_cases hjc : c ≤ j
      · rw [show decide ((a < r ∨ kbar = kk ∧ r + kbar ≤ a ∧ a < M0.nrows) ∧ c ≤ j ∧ j < M0.ncols) = decide (a < r ∨ kbar = kk ∧ r + kbar ≤ a) from decide_eq_decide.2 (by omega)]
      · rw [decide_eq_false (by omega), Bool.false_and]
        rw [xsum_congr (g := fun _ => false) fun l hl => by rw [gleft (r + l) j (by omega) (by omega) (by omega), Bool.and_false], xsum_false, Bool.and_false]
  · intro a b hab
    rw [hu, ← h.out a b hab, ← gout a b (.inr hab)]
    rcases hab with hab | hab
    · rw [decide_eq_false (by omega)]; simp
    · rw [decide_eq_false (by omega)]; simp
  · intro i hi
    split
    · have := h.pc i ‹_›; omega
    · omega
  · intro i j hij hj
    split
    · have := h.pc i ‹_›
      split
      · exact h.mono i j hij ‹_›
      · omega
    · rw [if_neg (by omega)]; omega
  · intro i hi a ha
    split
    · rename_i hir
      rw [hbefore a _ (h.pc i hir)]
      by_cases har : a < r
      · rw [hupper a _ har]; exact h.piv i hir a ha
      · rw [gleft a _ (by omega) ha (h.pc i hir), decide_eq_false (by omega)]
    · rw [hcol a ha (i - r) (by omega), decide_eq_decide]; omega
  · intro i hi j hj
    split at hj
    · rename_i hir
      rw [hbefore i j (by have := h.pc i hir; omega), hupper i j hir]
      exact h.lead i hir j hj
    · by_cases hjc : j < c
      · rw [hbefore i j hjc]; exact gleft i j (by omega) (by omega) hjc
      · have := hcol i (by omega) (j - c) (by omega)
        rw [show c + (j - c) = j by omega, decide_eq_false (by omega)] at this
        exact this
  · intro a b h1 h2 h3
    by_cases hbc : b < c
    · rw [hbefore a b hbc]; exact gleft a b (by omega) h2 hbc
    · have := hcol a h2 (b - c) (by omega)
      rw [show c + (b - c) = b by omega, decide_eq_false (by omega)] at this
      exact this

/-- The row of the next pivot is brought to its place. -/
theorem EI.pivot {M0 A : Mzd} {r c rb cb : Nat} {p : Nat → Nat} (w : M0.Wf) (h : EI M0 r c p A) (hp : IsPivot A r c (some (rb, cb))) :
    Ok (mzd_row_swap A r rb) fun B => EI M0 r cb p B ∧ B.bit r cb = true := by
  obtain ⟨h1, h2, h3, h4, h5, h6⟩ := hp
  have hw := h.sh.wf w
  rw [h.sh.nrows] at h2 h6
  rw [h.sh.ncols] at h4
  refine (row_swap hw (by rw [h.sh.nrows]; omega) (by rw [h.sh.nrows]; exact h2)).mono ?_
  intro B ⟨sh, hB⟩
  rw [h.sh.ncols] at hB
  have hsame : ∀ a b, a < r → B.bit a b = A.bit a b := fun a b ha => by
    rw [hB]; unfold swapBit
    split
    · rw [if_neg (by omega), if_neg (by omega)]
    · rfl
  have hlow : ∀ a b, r ≤ a → a < M0.nrows → b < cb → B.bit a b = false := by
    have hA : ∀ a b, r ≤ a → a < M0.nrows → b < cb → A.bit a b = false := by
      intro a b ha1 ha2 hb
      by_cases hbc : b < c
      · exact h.zero a b ha1 ha2 hbc
      · exact h6 a ha1 ha2 b (by omega) hb
    intro a b ha1 ha2 hb
    rw [hB]; unfold swapBit
    split
    · split
      · exact hA _ _ h1 h2 hb
      · split
        · exact hA _ _ (Nat.le_refl _) (by omega) hb
        · exact hA _ _ ha1 ha2 hb
    · exact hA _ _ ha1 ha2 hb
  refine ⟨⟨h.sh.trans sh, ?_, ?_, h.hr, by omega, fun i hi => by have := h.pc i hi; omega, h.mono, ?_, ?_, hlow⟩, ?_⟩
  · exact h.eq.trans ((RowEq.swap (by omega) h2 (Nat.le_refl _)).trans (RowEq.of_eq fun i _ j _ => hB i j))
  · intro a b hab
    rw [hB, ← h.out a b hab]
    unfold swapBit
    split
    · rw [if_neg (by omega), if_neg (by omega)]
    · rfl
  · intro i hi a ha
    by_cases har : a < r
    · rw [hsame a _ har]; exact h.piv i hi a ha
    · rw [hlow a _ (by omega) ha (by have := h.pc i hi; omega), decide_eq_false (by omega)]
  · intro i hi j hj
    rw [hsame i j hi]; exact h.lead i hi j hj
  · rw [hB]
    unfold swapBit
    rw [if_pos h4, if_pos rfl]
    exact h5

/-- The matrix `N` is a reduced echelon form of `M0` with the pivots `p 0, …, p (r - 1)`. -/
structure EchRes (M0 : Mzd) (x : Mzd × Nat) : Prop where
  ex : ∃ p : Nat → Nat, EI M0 x.2 M0.ncols p x.1

theorem EI.done {M0 A : Mzd} {r c : Nat} {p : Nat → Nat} (h : EI M0 r c p A) (hz : ∀ a, r ≤ a → a < M0.nrows → ∀ j, c ≤ j → j < M0.ncols → A.bit a j = false) :
    EchRes M0 (A, r) :=
  ⟨⟨p, h.sh, h.eq, h.out, h.hr, Nat.le_refl _, fun i hi => Nat.lt_of_lt_of_le (h.pc i hi) h.hc, h.mono, h.piv, h.lead, fun a b h1 h2 h3 => by
    by_cases hb : b < c
    · exact h.zero a b h1 h2 hb
    · exact hz a h1 h2 b (by omega) h3⟩⟩

theorem echLoop_spec {M0 : Mzd} (w : M0.Wf) {k : Nat} (hk : k ≤ 10) : ∀ (fuel : Nat) (s : Ech) (p : Nat → Nat),
    EI M0 s.r s.c p s.A → (∀ z < 6, CanTab s.A k 0 (s.T z)) → 1 ≤ s.kk → s.kk ≤ 6 * k →
    (2 * (M0.ncols - s.c) + 1 ≤ fuel ∧ (s.c < M0.ncols → s.r < M0.nrows ∧ s.A.bit s.r s.c = true) ∨ 2 * (M0.ncols - s.c) + 2 ≤ fuel) → Ok (echLoop k fuel s) (EchRes M0)
  | 0, s, p, _, _, _, _, hf => by omega
  | fuel + 1, s, p, h, hT, hkk, hkk', hf => by
    have gn : s.A.nrows = M0.nrows := h.sh.nrows
    have gc : s.A.ncols = M0.ncols := h.sh.ncols
    rw [echLoop, gc]
    split
    swap
    · rename_i hc
      rw [Ok.pure_iff]
      exact h.done fun a _ _ j h1 h2 => by omega
    rename_i hc
    have hk' : ∃ kk, (if M0.ncols < s.c + s.kk then M0.ncols - s.c else s.kk) = kk ∧ 1 ≤ kk ∧ kk ≤ 6 * k ∧ s.c + kk ≤ M0.ncols := by
      refine ⟨_, rfl, ?_⟩
      split <;> omega
    obtain ⟨kk, ekk, k1, k2, k3⟩ := hk'
    rw [ekk]
    have hw := h.sh.wf w
    have hrr := h.hr
    dsimp only
    refine Ok.bind (gauss_full hw (by rw [gn]; exact h.hr) (by rw [gc]; exact k3) (by omega) (by rw [gn]; exact h.zero)) ?_
    rintro ⟨X, kbar⟩ ⟨g1, g, g2, g3, g4⟩
    dsimp only at g1 g g2 g3 g4 ⊢
    rw [gn] at g2 g3
    have xn : X.nrows = M0.nrows := by rw [g.sh.nrows, gn]
    have xc : X.ncols = M0.ncols := by rw [g.sh.ncols, gc]
    refine Ok.bind (echUpdate_spec (g.sh.wf hw) (kk := kk) (show kbar ≤ 6 * k by omega) hk (by rw [xc]; omega) (by rw [xn]; exact g2)
      (fun h0 => by have := g.ident 0 h0 0 h0; simpa using this) (fun z hz => (hT z hz).sh g.sh)) ?_
    rintro ⟨Y, T⟩ ⟨u, hT'⟩
    dsimp only at u hT' ⊢
    have hY := h.block (show s.c + kbar ≤ M0.ncols by omega) g1 g g2 g3 u
    -- the block is not empty if the entry at its corner is one
    have hprog : (s.c < M0.ncols → s.r < M0.nrows ∧ s.A.bit s.r s.c = true) → 0 < kbar := by
      intro hcorner
      obtain ⟨hr', hb'⟩ := hcorner hc
      by_contra h0
      have h0' : kbar = 0 := by omega
      have e1 := g3 (by omega) s.r (by omega) hr' 0 (Nat.zero_le _)
      rw [Nat.add_zero, g4 h0', hb'] at e1
      exact absurd e1 (by decide)
    split
    · rename_i hne
      refine Ok.bind (find_pivot (hY.sh.wf w) (by rw [hY.sh.nrows]; exact hY.hr)) ?_
      intro o ho
      cases o with
      | none =>
        dsimp only
        rw [Ok.pure_iff]
        unfold IsPivot at ho
        rw [hY.sh.nrows, hY.sh.ncols] at ho
        exact hY.done ho
      | some x =>
        obtain ⟨rb, cb⟩ := x
        dsimp only
        refine Ok.bind (hY.pivot w ho) ?_
        intro B ⟨hB, hBb⟩
        have hwd : B.width = Y.width := by rw [hB.sh.width, hY.sh.width]
        refine echLoop_spec w hk fuel _ _ hB (fun z hz => (hT' z hz).of_width hwd) k1 k2 (.inl ⟨?_, fun _ => ⟨?_, hBb⟩⟩)
        · have := ho.2.2.1
          rcases hf with ⟨hf, hcorner⟩ | hf
          · have := hprog hcorner
            dsimp only
            omega
          · dsimp only
            omega
        · have h1 := ho.1
          have h2 := ho.2.1
          rw [hY.sh.nrows] at h2
          dsimp only
          omega
    · rename_i hne
      refine echLoop_spec w hk fuel _ _ hY hT' k1 k2 ?_
      dsimp only
      exact .inr (by omega)

end WB.m4w
