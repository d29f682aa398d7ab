import Mathlib.LinearAlgebra.Matrix.Block
import Verif.Model.M4riMove
import Verif.Proof.M4riInv
import Verif.Proof.M4riMove

/-!
# Elimination row by row in M4RI (helper lemmas)
-/
namespace WB.m4w

open WB.cmp (Mem Mem2)

/-- The pivot row is added to the other rows. -/
def elimBit (f : Nat → Nat → Bool) (lo hi sr i n : Nat) (a b : Nat) : Bool :=
  f a b ^^ (decide (lo ≤ a ∧ a < hi ∧ a ≠ sr ∧ i ≤ b ∧ b < n) && (f a i && f sr b))

theorem gaussElim_spec {M : Mzd} (w : M.Wf) {lo sr i : Nat} (hs : sr < M.nrows) (hi : i < M.ncols) :
    Ok (gaussElim M lo sr i) fun N => Sh M N ∧ ∀ a b, N.bit a b = elimBit M.bit lo M.nrows sr i M.ncols a b := by
  unfold gaussElim
  by_cases hl : lo ≤ M.nrows
  swap
  · rw [forUp_none (by omega), Ok.pure_iff]
    refine ⟨Sh.refl M, fun a b => ?_⟩
    unfold elimBit
    rw [decide_eq_false (by omega)]; simp
  refine Ok.forUp (P := fun ii N => Sh M N ∧ ∀ a b, N.bit a b = elimBit M.bit lo ii sr i M.ncols a b) hl ⟨Sh.refl M, fun a b => ?_⟩ ?_ (fun N h => h)
  · unfold elimBit
    rw [decide_eq_false (by omega)]; simp
  intro ii N h1 h2 ⟨sh, hN⟩
  have hrow : ∀ b, N.bit sr b = M.bit sr b := fun b => by rw [hN]; unfold elimBit; rw [decide_eq_false (by omega)]; simp
  have hii : ∀ b, N.bit ii b = M.bit ii b := fun b => by rw [hN]; unfold elimBit; rw [decide_eq_false (by omega)]; simp
  by_cases hne : ii ≠ sr
  · rw [if_pos hne, read_bit (sh.wf w) (by rw [sh.nrows]; exact h2) (by rw [sh.ncols]; exact hi), C_ok_bind, hii]
    cases hb : M.bit ii i
    · rw [if_neg (by decide), Ok.pure_iff]
      refine ⟨sh, fun a b => ?_⟩
      rw [hN]
      unfold elimBit
      by_cases ha : a = ii
      · subst ha; rw [hb, decide_eq_false (by omega)]; simp
      · congr 2; exact decide_eq_decide.2 (by omega)
    · rw [if_pos rfl]
      refine (row_add (sh.wf w) (dst := ii) (src := sr) (off := i) (by rw [sh.nrows]; exact h2) (by rw [sh.nrows]; exact hs) (by rw [sh.ncols]; exact hi) hne).mono ?_
      intro X ⟨shX, hX⟩
      refine ⟨sh.trans shX, fun a b => ?_⟩
      rw [hX, sh.ncols]
      unfold addBit
      by_cases ha : a = ii
      · subst ha
        rw [hii, hrow]
        unfold elimBit
        rw [hb, Bool.true_and]
        by_cases hbb : i ≤ b ∧ b < M.ncols
        · rw [if_pos ⟨rfl, hbb⟩, decide_eq_true (by omega), Bool.true_and]
        · rw [if_neg (by omega), decide_eq_false (by omega)]; simp
      · rw [if_neg (by omega), hN]
        unfold elimBit
        congr 2; exact decide_eq_decide.2 (by omega)
  · rw [if_neg hne, Ok.pure_iff]
    refine ⟨sh, fun a b => ?_⟩
    rw [hN]
    unfold elimBit
    congr 2; exact decide_eq_decide.2 (by omega)

/-- The columns before `c` have been dealt with; the pivots `p 0, …, p (r - 1)` have been found in them.  The entries above the pivots are zero only if `full`. -/
structure NI (full : Bool) (M0 : Mzd) (r c : Nat) (p : Nat → Nat) (A : Mzd) : Prop where
  sh : Sh M0 A
  eq : RowEq M0.nrows M0.ncols M0.bit A.bit
  out : ∀ a b, M0.nrows ≤ a ∨ M0.ncols ≤ b → A.bit a b = M0.bit a b
  hr : r ≤ M0.nrows
  hc : c ≤ M0.ncols
  pc : ∀ i < r, p i < c
  mono : ∀ i j, i < j → j < r → p i < p j
  piv : ∀ i < r, ∀ a < M0.nrows, full = true ∨ i ≤ a → A.bit a (p i) = decide (a = i)
  lead : ∀ i < r, ∀ j < p i, A.bit i j = false
  zero : ∀ a b, r ≤ a → a < M0.nrows → b < c → A.bit a b = false

theorem NI.start (full : Bool) (M : Mzd) : NI full M 0 0 (fun _ => 0) M :=
  ⟨Sh.refl M, RowEq.refl _ _ _, fun _ _ _ => rfl, Nat.zero_le _, Nat.zero_le _, fun i hi => by omega, fun i j _ hj => by omega, fun i hi => by omega, fun i hi => by omega,
    fun a b _ _ hb => by omega⟩

theorem NI.toEI {M0 A : Mzd} {r c : Nat} {p : Nat → Nat} (h : NI true M0 r c p A) : EI M0 r c p A :=
  ⟨h.sh, h.eq, h.out, h.hr, h.hc, h.pc, h.mono, fun i hi a ha => h.piv i hi a ha (.inl rfl), h.lead, h.zero⟩

/-- No pivot in column `c`. -/
theorem NI.skip {full : Bool} {M0 A : Mzd} {r c : Nat} {p : Nat → Nat} (h : NI full M0 r c p A) (hc : c < M0.ncols) (hz : ∀ a, r ≤ a → a < M0.nrows → A.bit a c = false) :
    NI full M0 r (c + 1) p A :=
  ⟨h.sh, h.eq, h.out, h.hr, hc, fun i hi => by have := h.pc i hi; omega, h.mono, h.piv, h.lead, fun a b h1 h2 h3 => by
    rcases Nat.lt_succ_iff_lt_or_eq.1 h3 with h4 | rfl
    · exact h.zero a b h1 h2 h4
    · exact hz a h1 h2⟩

/-- The pivot of column `c` is in row `j`. -/
theorem NI.step {full : Bool} {M0 A : Mzd} {r c j : Nat} {p : Nat → Nat} (w : M0.Wf) (h : NI full M0 r c p A) (hc : c < M0.ncols) (hj : r ≤ j) (hj' : j < M0.nrows)
    (hb : A.bit j c = true) :
    Ok (do
      let M ← mzd_row_swap A r j
      gaussElim M (if full then 0 else r + 1) r c) fun X => NI full M0 (r + 1) (c + 1) (fun i => if i < r then p i else c) X := by
  have hw := h.sh.wf w
  refine Ok.bind (row_swap hw (p := r) (q := j) (by rw [h.sh.nrows]; omega) (by rw [h.sh.nrows]; exact hj')) ?_
  intro B ⟨shB, hB⟩
  rw [h.sh.ncols] at hB
  have sh1 := h.sh.trans shB
  refine (gaussElim_spec (sh1.wf w) (lo := if full then 0 else r + 1) (sr := r) (i := c) (by rw [sh1.nrows]; omega) (by rw [sh1.ncols]; exact hc)).mono ?_
  intro X ⟨shX, hX⟩
  rw [sh1.nrows, sh1.ncols] at hX
  -- the rows above, and the columns before
  have hB1 : ∀ a b, a < r → B.bit a b = A.bit a b := fun a b ha => by
    rw [hB]; unfold swapBit
    split
    · rw [if_neg (by omega), if_neg (by omega)]
    · rfl
  have hB2 : ∀ a b, r ≤ a → a < M0.nrows → b < c → B.bit a b = false := by
    intro a b h1 h2 h3
    rw [hB]; unfold swapBit
    rw [if_pos (by omega)]
    split
    · exact h.zero j b hj hj' h3
    · split
      · exact h.zero r b (Nat.le_refl _) (by omega) h3
      · exact h.zero a b h1 h2 h3
  have hBp : B.bit r c = true := by rw [hB]; unfold swapBit; rw [if_pos hc, if_pos rfl]; exact hb
  have hXr : ∀ b, X.bit r b = B.bit r b := fun b => by rw [hX]; unfold elimBit; rw [decide_eq_false (by omega)]; simp
  have hXc : ∀ a b, b < c → X.bit a b = B.bit a b := fun a b hb => by rw [hX]; unfold elimBit; rw [decide_eq_false (by omega)]; simp
  have hcol : ∀ a < M0.nrows, full = true ∨ r ≤ a → X.bit a c = decide (a = r) := by
    intro a ha hf
    by_cases har : a = r
    · subst har; rw [hXr, hBp, decide_eq_true rfl]
    · rw [hX, decide_eq_false har]
      unfold elimBit
      have hlo : (if full = true then 0 else r + 1) ≤ a := by
        cases full
        · rw [if_neg (by decide)]; have := hf.resolve_left (by decide); omega
        · rw [if_pos rfl]; omega
      rw [decide_eq_true (by omega), hBp]
      simp
  refine ⟨sh1.trans shX, ?_, ?_, by omega, hc, ?_, ?_, ?_, ?_, ?_⟩
  · refine h.eq.trans ((RowEq.swap (f := A.bit) (p := r) (q := j) (by omega) hj' (Nat.le_refl _)).trans ?_)
    refine (RowEq.of_eq fun i _ k _ => hB i k).trans ?_
    refine RowEq.comb (fun a l => decide (l = r) && (decide ((if full then 0 else r + 1) ≤ a ∧ a ≠ r) && B.bit a c)) ?_ ?_
    · intro a _ l _ hal k _
      simp only [Bool.and_eq_true, decide_eq_true_eq] at hal
      rw [decide_eq_false (show ¬ (_ ∧ l ≠ r) from fun h => h.2 hal.1)]
      simp
    · intro a ha b hb'
      rw [hX]
      unfold elimBit
      congr 1
      rw [xsum_congr (n := M0.nrows) (g := fun l => decide (l = r) && ((decide ((if full then 0 else r + 1) ≤ a ∧ a ≠ r) && B.bit a c) && B.bit l b)) fun l _ => by
        rw [Bool.and_assoc], xsum_one (by omega)]
      by_cases hbc : c ≤ b
      · rw [Bool.and_assoc]
        congr 1
        exact decide_eq_decide.2 ⟨fun h => ⟨h.1, h.2.2.1⟩, fun h => ⟨h.1, ha, h.2, hbc, hb'⟩⟩
      · rw [decide_eq_false (by omega), hB2 r b (Nat.le_refl _) (by omega) (by omega)]; simp
  · intro a b hab
    rw [hX]
    unfold elimBit
    rw [decide_eq_false (by omega), Bool.false_and, Bool.xor_false, hB, ← h.out a b hab]
    unfold swapBit
    split
    · rw [if_neg (by omega), if_neg (by omega)]
    · rfl
  · intro i hi
    split
    · have := h.pc i ‹_›; omega
    · omega
  · intro i j' hij hj''
    rw [if_pos (show i < r by omega)]
    split
    · exact h.mono i j' hij ‹_›
    · exact h.pc i (by omega)
  · intro i hi a ha hf
    by_cases hir : i < r
    · rw [if_pos hir, hXc a _ (h.pc i hir)]
      by_cases har : a < r
      · rw [hB1 a _ har]; exact h.piv i hir a ha hf
      · rw [hB2 a _ (by omega) ha (h.pc i hir), decide_eq_false (by omega)]
    · rw [if_neg hir, show i = r by omega]
      exact hcol a ha (by rcases hf with hf | hf; exacts [.inl hf, .inr (by omega)])
  · intro i hi k hk
    by_cases hir : i < r
    · rw [if_pos hir] at hk
      rw [hXc i k (by have := h.pc i hir; omega), hB1 i k hir]
      exact h.lead i hir k hk
    · rw [if_neg hir] at hk
      rw [hXc i k hk]
      exact hB2 i k (by omega) (by omega) hk
  · intro a b h1 h2 h3
    rcases Nat.lt_succ_iff_lt_or_eq.1 h3 with h4 | rfl
    · rw [hXc a b h4]; exact hB2 a b (by omega) h2 h4
    · rw [hcol a h2 (.inr (by omega)), decide_eq_false (by omega)]

theorem naive_spec {M : Mzd} (w : M.Wf) (full : Bool) : Ok (mzd_echelonize_naive M full) fun x => ∃ p, NI full M x.2 M.ncols p x.1 := by
  unfold mzd_echelonize_naive mzd_gauss_delayed
  refine Ok.bind (P := fun s : Mzd × Nat × Nat => s.2.1 = s.2.2 ∧ ∃ p, NI full M s.2.1 M.ncols p s.1) ?_ ?_
  · refine Ok.forUp (P := fun c (s : Mzd × Nat × Nat) => s.2.1 = s.2.2 ∧ ∃ p, NI full M s.2.1 c p s.1) (Nat.zero_le _) ⟨rfl, _, NI.start full M⟩ ?_ (fun s h => h)
    intro c s _ hc ⟨hs, p, h⟩
    rw [h.sh.nrows]
    refine Ok.forBrk (P := fun j t => t = s ∧ ∀ a, s.2.1 ≤ a → a < j → s.1.bit a c = false) (R := fun t : Mzd × Nat × Nat => t.2.1 = t.2.2 ∧ ∃ p, NI full M t.2.1 (c + 1) p t.1) h.hr
      ⟨rfl, fun a h1 h2 => by omega⟩ ?_ ?_ (fun _ h => h)
    · rintro j t hj1 hj2 ⟨rfl, hz⟩
      rw [read_bit (h.sh.wf w) (by rw [h.sh.nrows]; exact hj2) (by rw [h.sh.ncols]; exact hc), C_ok_bind]
      cases hb : t.1.bit j c
      · rw [if_neg (by decide), Ok.pure_iff]
        refine ⟨rfl, fun a h1 h2 => ?_⟩
        rcases Nat.lt_succ_iff_lt_or_eq.1 h2 with h3 | rfl
        · exact hz a h1 h3
        · exact hb
      · rw [if_pos rfl]
        have := h.step w hc hj1 hj2 hb
        rw [Ok.bind_iff] at this
        refine (Ok.bind_iff _ _ _).2 (this.mono fun X hX => (Ok.bind_iff _ _ _).2 (hX.mono fun Y hY => (Ok.pure_iff _ _).2 ?_))
        exact ⟨by show t.2.1 + 1 = t.2.2 + 1; rw [hs], _, hY⟩
    · rintro t ⟨rfl, hz⟩
      exact ⟨hs, p, h.skip hc fun a h1 h2 => hz a h1 h2⟩
  · intro s ⟨hs, p, h⟩
    refine (Ok.pure_iff _ _).2 ⟨p, ?_⟩
    show NI full M s.2.2 M.ncols p s.1
    rw [← hs]; exact h

/-- From the words to the matrices. -/
theorem NI.ref {full : Bool} {M N : Mzd} {k : Nat} {p : Nat → Nat} (h : NI full M k M.ncols p N) {r c : Nat} {A : Matrix (Fin r) (Fin c) (ZMod 2)} (hA : Rep M A) :
    ∃ P : Matrix (Fin r) (Fin r) (ZMod 2), IsUnit P ∧ Rep N (P * A) ∧ IsRef (P * A) k ∧ (∀ a b, r ≤ a ∨ c ≤ b → N.bit a b = M.bit a b) := by
  obtain rfl := hA.nrows
  obtain rfl := hA.ncols
  have hM : A = bmat M.nrows M.ncols M.bit := by ext i j; exact (hA.bit i j).symm
  obtain ⟨P, hP, e⟩ := h.eq
  rw [← hM] at e
  have hbit : ∀ (i : Fin M.nrows) (j : Fin M.ncols), bitF (N.bit i j) = (P * A) i j := fun i j => by rw [← e]; rfl
  refine ⟨P, hP, ⟨h.sh.wf hA.wf, h.sh.nrows, h.sh.ncols, hbit⟩, ⟨h.hr, fun i => ⟨p i, h.pc i i.2⟩, fun i j hij => h.mono i j hij j.2, ?_, ?_, ?_⟩, fun a b hab => h.out a b hab⟩
  · intro i
    rw [← hbit]
    show bitF (N.bit i (p i)) = _
    rw [h.piv i i.2 i (by have := i.2; have := h.hr; omega) (.inr (Nat.le_refl _)), decide_eq_true rfl]; rfl
  · intro i j hj
    rw [← hbit]
    show bitF (N.bit i j) = 0
    rw [h.lead i i.2 j hj]; rfl
  · intro a ha j
    rw [← hbit, h.zero a j ha a.2 j.2]; rfl

theorem IsRef.rank {r c k : Nat} {R : Matrix (Fin r) (Fin c) (ZMod 2)} (h : IsRef R k) : R.rank = k := by
  obtain ⟨hk, p, hp, h1, h2, h3⟩ := h
  refine le_antisymm ?_ ?_
  · -- the rows from `k` on are zero
    let E : Matrix (Fin r) (Fin k) (ZMod 2) := Matrix.of fun a i => if a = Fin.castLE hk i then 1 else 0
    have hR : R = E * R.submatrix (Fin.castLE hk) id := by
      ext a j
      rw [Matrix.mul_apply]
      by_cases ha : (a : Nat) < k
      · rw [Finset.sum_eq_single ⟨a, ha⟩]
        · show _ = (if a = Fin.castLE hk ⟨a, ha⟩ then (1 : ZMod 2) else 0) * R (Fin.castLE hk ⟨a, ha⟩) j
          rw [if_pos (show a = Fin.castLE hk ⟨a, ha⟩ from rfl), one_mul]; rfl
        · intro b _ hb
          have hab : ¬ a = Fin.castLE hk b := fun h => hb (Fin.ext (congrArg Fin.val h).symm)
          show (if a = Fin.castLE hk b then (1 : ZMod 2) else 0) * _ = 0
          rw [if_neg hab, zero_mul]
        · intro h; exact absurd (Finset.mem_univ _) h
      · rw [h3 a (by omega), Finset.sum_eq_zero]
        intro b _
        show (if a = Fin.castLE hk b then (1 : ZMod 2) else 0) * _ = 0
        have hab : ¬ a = Fin.castLE hk b := fun h => ha (by rw [h]; exact b.2)
        rw [if_neg hab, zero_mul]
    rw [hR]
    exact (Matrix.rank_mul_le_left _ _).trans (Matrix.rank_le_width _)
  · have hdet : (R.submatrix (Fin.castLE hk) p).det = 1 := by
      rw [Matrix.det_of_upperTriangular]
      · exact Finset.prod_eq_one fun i _ => h1 i
      · intro a b hab
        exact h2 a (p b) (hp hab)
    have hu : IsUnit (R.submatrix (Fin.castLE hk) p) := (Matrix.isUnit_iff_isUnit_det _).2 (by rw [hdet]; exact isUnit_one)
    have e1 : (R.submatrix (Fin.castLE hk) p).rank = k := by rw [Matrix.rank_of_isUnit _ hu, Fintype.card_fin]
    let F : Matrix (Fin k) (Fin r) (ZMod 2) := Matrix.of fun i a => if a = Fin.castLE hk i then 1 else 0
    let G : Matrix (Fin c) (Fin k) (ZMod 2) := Matrix.of fun j i => if j = p i then 1 else 0
    have e2 : R.submatrix (Fin.castLE hk) p = F * R * G := by
      ext i j
      rw [Matrix.mul_apply, Finset.sum_eq_single (p j)]
      · show _ = _ * (if p j = p j then (1 : ZMod 2) else 0)
        rw [if_pos rfl, mul_one, Matrix.mul_apply, Finset.sum_eq_single (Fin.castLE hk i)]
        · show _ = (if Fin.castLE hk i = Fin.castLE hk i then (1 : ZMod 2) else 0) * _
          rw [if_pos rfl, one_mul]; rfl
        · intro b _ hb
          show (if b = Fin.castLE hk i then (1 : ZMod 2) else 0) * _ = 0
          rw [if_neg hb, zero_mul]
        · intro h; exact absurd (Finset.mem_univ _) h
      · intro b _ hb
        show _ * (if b = p j then (1 : ZMod 2) else 0) = 0
        rw [if_neg hb, mul_zero]
      · intro h; exact absurd (Finset.mem_univ _) h
    calc k = (F * R * G).rank := by rw [← e2, e1]
      _ ≤ (F * R).rank := Matrix.rank_mul_le_left _ _
      _ ≤ R.rank := Matrix.rank_mul_le_right _ _

end WB.m4w
