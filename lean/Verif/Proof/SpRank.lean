import Mathlib.LinearAlgebra.Matrix.Rank
import Mathlib.Algebra.Field.ZMod
import Verif.Model.SpRank
import Verif.Proof.SpLinear

/-!
# The rank over GF(2) by elimination (helper lemmas)
-/
namespace WB.sp


/-- An element -/
def ent (lm : List (List Nat)) (k c : Nat) : ZMod 2 := bit (lm[k]?.getD []) c

/-- The rows as vectors -/
def rowv (Q M : Nat) (lm : List (List Nat)) : Fin Q → Fin M → ZMod 2 := fun k c => ent lm k c

/-- The space spanned by the rows -/
def rowsp (Q M : Nat) (lm : List (List Nat)) : Submodule (ZMod 2) (Fin M → ZMod 2) :=
  Submodule.span (ZMod 2) (Set.range (rowv Q M lm))

variable {Q M : Nat} {lm : List (List Nat)}

theorem Rows.row (h : Rows Q M lm) {k : Nat} (hk : k < Q) : (lm[k]?.getD []).length = M ∧ Bits (lm[k]?.getD []) := by
  have hk' : k < lm.length := by rw [h.1]; exact hk
  rw [List.getElem?_eq_getElem hk']
  exact h.2 _ (List.getElem_mem hk')

theorem Rows.ix (h : Rows Q M lm) {k : Nat} (hk : k < Q) : ix lm k = .ok (lm[k]?.getD []) := ix_getD _ (by rw [h.1]; exact hk)

theorem Rows.ix2 (h : Rows Q M lm) {k c : Nat} (hk : k < Q) (hc : c < M) :
    ix2 lm k c = .ok ((lm[k]?.getD [])[c]?.getD 0) := by
  unfold sp.ix2
  rw [h.ix hk, C_pure_bind, ix_getD 0 (by rw [(h.row hk).1]; exact hc)]

theorem cast_eq_one {a : Nat} (ha : a < 2) : (a : ZMod 2) = 1 ↔ a = 1 := by
  have : ∀ a : Nat, a < 2 → ((a : ZMod 2) = 1 ↔ a = 1) := by decide
  exact this a ha

theorem Rows.one_iff (h : Rows Q M lm) {k : Nat} (c : Nat) (hk : k < Q) : (lm[k]?.getD [])[c]?.getD 0 = 1 ↔ ent lm k c = 1 :=
  (cast_eq_one ((h.row hk).2.lt c)).symm

theorem Rows.set (h : Rows Q M lm) (j : Nat) {r : List Nat} (h1 : r.length = M) (h2 : Bits r) : Rows Q M (lm.set j r) := by
  refine ⟨by rw [List.length_set, h.1], fun x hx => ?_⟩
  rcases List.mem_or_eq_of_mem_set hx with g | g
  · exact h.2 x g
  · rw [g]; exact ⟨h1, h2⟩

theorem ent_set (h : Rows Q M lm) {j : Nat} (r : List Nat) (hj : j < Q) (k c : Nat) :
    ent (lm.set j r) k c = if k = j then bit r c else ent lm k c := by
  unfold ent
  rw [List.getElem?_set]
  by_cases hk : k = j
  · rw [if_pos hk.symm, if_pos (by rw [h.1]; omega), if_pos hk]; rfl
  · rw [if_neg (fun e => hk e.symm), if_neg hk]

theorem bit_zip {a b : List Nat} {c : Nat} (h : a.length = M) (h' : b.length = M) (hc : c < M) :
    bit (List.zipWith (· ^^^ ·) a b) c = bit a c + bit b c := by
  unfold bit
  rw [← cast_xor]
  congr 1
  rw [List.getElem?_zipWith, List.getElem?_eq_getElem (by omega : c < a.length), List.getElem?_eq_getElem (by omega : c < b.length)]
  rfl

theorem bits_zip {a b : List Nat} (h : Bits a) (h' : Bits b) : Bits (List.zipWith (· ^^^ ·) a b) := fun x hx => by
  obtain ⟨i, hi, rfl⟩ := List.mem_iff_getElem.1 hx
  rw [List.getElem_zipWith]
  exact xor_lt (h _ (List.getElem_mem _)) (h' _ (List.getElem_mem _))

/-- Adding a row to another one -/
theorem rowsp_add {lm' : List (List Nat)} {r j : Nat} (hr : r < Q) (hj : j < Q) (hne : r ≠ j)
    (h : ∀ k c, k < Q → c < M → ent lm' k c = if k = j then ent lm r c + ent lm j c else ent lm k c) :
    rowsp Q M lm' = rowsp Q M lm := by
  have e : rowv Q M lm' = Function.update (rowv Q M lm) ⟨j, hj⟩ (rowv Q M lm ⟨j, hj⟩ + (1 : ZMod 2) • rowv Q M lm ⟨r, hr⟩) := by
    funext k c
    show ent lm' k c = _
    rw [h k c k.2 c.2, Function.update_apply]
    by_cases hk : (k : Nat) = j
    · rw [if_pos hk, if_pos (Fin.ext hk), one_smul, add_comm]; rfl
    · rw [if_neg hk, if_neg (fun e => hk (congrArg Fin.val e))]; rfl
  unfold rowsp
  rw [e, Submodule.span_range_update_add_smul (fun e => hne (congrArg Fin.val e))]

/-- Exchanging two rows -/
theorem rowsp_swap {lm' : List (List Nat)} {i j : Nat} (hi : i < Q) (hj : j < Q)
    (h : ∀ k c, k < Q → c < M → ent lm' k c = ent lm (if k = j then i else if k = i then j else k) c) :
    rowsp Q M lm' = rowsp Q M lm := by
  have e : rowv Q M lm' = rowv Q M lm ∘ Equiv.swap ⟨j, hj⟩ ⟨i, hi⟩ := by
    funext k c
    show ent lm' k c = ent lm (Equiv.swap (⟨j, hj⟩ : Fin Q) ⟨i, hi⟩ k : Fin Q) c
    rw [h k c k.2 c.2, Equiv.swap_apply_def]
    simp only [Fin.ext_iff]
    congr 1
    split
    · rfl
    · split <;> rfl
  unfold rowsp
  rw [e, EquivLike.range_comp]

theorem swap_run (h : Rows Q M lm) {i j : Nat} (hi : i < Q) (hj : j < Q) (hne : i ≠ j) :
    Ok (swap lm i j) fun lm' => Rows Q M lm' ∧
      ∀ k c, ent lm' k c = ent lm (if k = j then i else if k = i then j else k) c := by
  unfold swap
  rw [h.ix hj, C_pure_bind, h.ix hi, C_pure_bind, put_ok _ (by rw [h.1]; exact hi), C_pure_bind,
    put_ok _ (by rw [List.length_set, h.1]; exact hj), Ok.ok_iff]
  have h1 := h.set i (h.row hj).1 (h.row hj).2
  refine ⟨h1.set j (h.row hi).1 (h.row hi).2, fun k c => ?_⟩
  rw [ent_set h1 _ hj, ent_set h _ hi]
  split
  · rfl
  · split <;> rfl

theorem findPivot_run {s : Echelon} (h : Rows Q M s.lm) (hc : s.pivotstartcol < M) (hr : s.pivotstartrow ≤ Q) :
    Ok (findPivot Q s) (Step.holds (fun _ => ∀ k, s.pivotstartrow ≤ k → k < Q → ent s.lm k s.pivotstartcol = 0)
      fun p => s.pivotstartrow ≤ p ∧ p < Q ∧ ent s.lm p s.pivotstartcol = 1) := by
  unfold findPivot
  refine Ok.forRet (P := fun i _ => ∀ k, s.pivotstartrow ≤ k → k < i → ent s.lm k s.pivotstartcol = 0)
    (R := fun p => s.pivotstartrow ≤ p ∧ p < Q ∧ ent s.lm p s.pivotstartcol = 1) hr (fun k h1 h2 => by omega) ?_
    (fun _ h => h) (fun _ h => h)
  intro i _ h1 h2 h3
  rw [h.ix2 h2 hc, C_pure_bind]
  by_cases he : (s.lm[i]?.getD [])[s.pivotstartcol]?.getD 0 = 1
  · rw [if_pos he, Ok.pure_iff]
    exact ⟨h1, h2, (h.one_iff _ h2).1 he⟩
  · rw [if_neg he, Ok.pure_iff]
    intro k g1 g2
    by_cases hk : k = i
    · subst hk
      by_contra hne
      exact he ((h.one_iff _ h2).2 (zmod2_one hne))
    · exact h3 k g1 (by omega)

theorem eliminate_run (h : Rows Q M lm) {r c : Nat} (hr : r < Q) (hc : c < M) (h1 : ent lm r c = 1) :
    Ok (eliminate Q r c lm) fun lm' => Rows Q M lm' ∧ rowsp Q M lm' = rowsp Q M lm ∧
      ∀ k d, k < Q → d < M → ent lm' k d = if r < k then ent lm k d + ent lm k c * ent lm r d else ent lm k d := by
  unfold eliminate
  refine Ok.forUp (P := fun j lm' => Rows Q M lm' ∧ rowsp Q M lm' = rowsp Q M lm ∧
      ∀ k d, k < Q → d < M → ent lm' k d = if r < k ∧ k < j then ent lm k d + ent lm k c * ent lm r d else ent lm k d) (by omega)
      ⟨h, rfl, fun k d _ _ => by rw [if_neg (by omega)]⟩ ?_ ?_
  · rintro j lm' g1 g2 ⟨g3, g4, g5⟩
    rw [g3.ix2 g2 hc, C_pure_bind]
    have ej : ∀ d, d < M → ent lm' j d = ent lm j d := fun d hd => by rw [g5 j d g2 hd, if_neg (by omega)]
    have er : ∀ d, d < M → ent lm' r d = ent lm r d := fun d hd => by rw [g5 r d hr hd, if_neg (by omega)]
    by_cases he : (lm'[j]?.getD [])[c]?.getD 0 = 1
    · have he' := (g3.one_iff _ g2).1 he
      rw [ej c hc] at he'
      rw [if_pos he, g3.ix hr, C_pure_bind, g3.ix g2, C_pure_bind, put_ok _ (by rw [g3.1]; exact g2), Ok.ok_iff]
      have hl := g3.row hr
      have hl' := g3.row g2
      have e : ∀ k d, k < Q → d < M → ent (lm'.set j (List.zipWith (· ^^^ ·) (lm'[r]?.getD []) (lm'[j]?.getD []))) k d =
          if k = j then ent lm' r d + ent lm' j d else ent lm' k d := fun k d hk hd => by
        rw [ent_set g3 _ g2]
        split
        · exact bit_zip hl.1 hl'.1 hd
        · rfl
      refine ⟨g3.set j (by rw [List.length_zipWith, hl.1, hl'.1, min_self]) (bits_zip hl.2 hl'.2), ?_, fun k d hk hd => ?_⟩
      · rw [rowsp_add hr g2 (by omega) e, g4]
      · rw [e k d hk hd]
        by_cases hkj : k = j
        · subst hkj
          rw [if_pos rfl, if_pos (by omega), er d hd, ej d hd, he', one_mul, add_comm]
        · rw [if_neg hkj, g5 k d hk hd]
          by_cases hx : r < k ∧ k < j
          · rw [if_pos hx, if_pos (by omega)]
          · rw [if_neg hx, if_neg (by omega)]
    · rw [if_neg he, Ok.pure_iff]
      have he' : ent lm j c = 0 := by
        by_contra hne
        rw [← ej c hc] at hne
        exact he ((g3.one_iff _ g2).2 (zmod2_one hne))
      refine ⟨g3, g4, fun k d hk hd => ?_⟩
      rw [g5 k d hk hd]
      by_cases hkj : k = j
      · subst hkj
        rw [if_neg (by omega), if_pos (by omega), he', zero_mul, add_zero]
      · by_cases hx : r < k ∧ k < j
        · rw [if_pos hx, if_pos (by omega)]
        · rw [if_neg hx, if_neg (by omega)]
  · rintro lm' ⟨g1, g2, g3⟩
    refine ⟨g1, g2, fun k d hk hd => ?_⟩
    rw [g3 k d hk hd]
    by_cases hx : r < k
    · rw [if_pos ⟨hx, hk⟩, if_pos hx]
    · rw [if_neg (by omega), if_neg hx]

/-- The state after `i` columns -/
structure EInv (Q M : Nat) (m : List (List Nat)) (i : Nat) (s : Echelon) : Prop where
  shape : Rows Q M s.lm
  col : s.pivotstartcol = i
  row : s.pivotstartrow ≤ i
  span : rowsp Q M s.lm = rowsp Q M m
  pivots : ∃ piv : Nat → Nat, (∀ k, k < s.pivotstartrow → piv k < i ∧ ent s.lm k (piv k) = 1 ∧ ∀ c, c < piv k → ent s.lm k c = 0) ∧
    ∀ k l, k < l → l < s.pivotstartrow → piv k < piv l
  zero : ∀ k, s.pivotstartrow ≤ k → k < Q → ∀ c, c < i → ent s.lm k c = 0

theorem echelonStep_run {m : List (List Nat)} {i : Nat} {s : Echelon} (h : EInv Q M m i s) (hi : i < M) (hQ : i < Q) :
    Ok (echelonStep Q s) (EInv Q M m (i + 1)) := by
  have hr := h.row
  have hc := h.col
  obtain ⟨piv, hp1, hp2⟩ := h.pivots
  unfold echelonStep
  refine Ok.bind (findPivot_run h.shape (by rw [hc]; exact hi) (by omega)) ?_
  rintro (_ | p) hf
  · simp only [Step.holds_next] at hf
    rw [Ok.pure_iff]
    refine ⟨h.shape, by simp [hc], by simp; omega, h.span, ⟨piv, fun k hk => ⟨Nat.lt_succ_of_lt (hp1 k hk).1, (hp1 k hk).2⟩, hp2⟩, ?_⟩
    intro k g1 g2 c g3
    by_cases hci : c = i
    · rw [hci, ← hc]; exact hf k g1 g2
    · exact h.zero k g1 g2 c (by omega)
  · simp only [Step.holds_stop] at hf
    obtain ⟨f1, f2, f3⟩ := hf
    rw [hc] at f3
    have hsw : Ok (if p ≠ s.pivotstartrow then swap s.lm p s.pivotstartrow else pure s.lm) fun lm' => Rows Q M lm' ∧
        rowsp Q M lm' = rowsp Q M s.lm ∧ ∀ k c, k < Q → c < M →
          ent lm' k c = ent s.lm (if k = s.pivotstartrow then p else if k = p then s.pivotstartrow else k) c := by
      by_cases hne : p ≠ s.pivotstartrow
      · rw [if_pos hne]
        refine (swap_run h.shape f2 (by omega) hne).mono ?_
        rintro lm' ⟨g1, g2⟩
        exact ⟨g1, rowsp_swap f2 (by omega) fun k c _ _ => g2 k c, fun k c _ _ => g2 k c⟩
      · rw [if_neg hne, Ok.pure_iff]
        refine ⟨h.shape, rfl, fun k c _ _ => ?_⟩
        congr 1
        split
        · omega
        · split
          · omega
          · rfl
    refine Ok.bind hsw ?_
    rintro lm1 ⟨a1, a2, a3⟩
    have hpr : ent lm1 s.pivotstartrow i = 1 := by rw [a3 _ _ (by omega) hi, if_pos rfl, f3]
    have hz : ∀ k c, s.pivotstartrow ≤ k → k < Q → c < i → ent lm1 k c = 0 := fun k c g1 g2 g3 => by
      rw [a3 k c g2 (by omega)]
      refine h.zero _ ?_ ?_ c g3
      · split
        · exact f1
        · split <;> omega
      · split
        · exact f2
        · split <;> omega
    have hlow : ∀ k c, k < s.pivotstartrow → c < M → ent lm1 k c = ent s.lm k c := fun k c g1 g2 => by
      rw [a3 k c (by omega) g2, if_neg (by omega), if_neg (by omega)]
    rw [hc]
    refine Ok.bind (eliminate_run a1 (by omega) hi hpr) ?_
    rintro lm2 ⟨b1, b2, b3⟩
    rw [Ok.pure_iff]
    refine ⟨b1, rfl, by simp; omega, by rw [b2, a2, h.span], ⟨fun k => if k < s.pivotstartrow then piv k else i, ?_, ?_⟩, ?_⟩
    · intro k hk
      simp only at hk
      by_cases hk' : k < s.pivotstartrow
      · simp only [if_pos hk']
        obtain ⟨q1, q2, q3⟩ := hp1 k hk'
        refine ⟨by omega, ?_, fun c hcp => ?_⟩
        · rw [b3 k _ (by omega) (by omega), if_neg (by omega), hlow k _ hk' (by omega), q2]
        · rw [b3 k c (by omega) (by omega), if_neg (by omega), hlow k c hk' (by omega), q3 c hcp]
      · have : k = s.pivotstartrow := by omega
        subst this
        simp only [if_neg hk']
        refine ⟨by omega, ?_, fun c hcp => ?_⟩
        · rw [b3 _ _ (by omega) hi, if_neg (by omega), hpr]
        · rw [b3 _ c (by omega) (by omega), if_neg (by omega), hz _ c (le_refl _) (by omega) hcp]
    · intro k l hkl hl
      simp only at hl
      simp only [if_pos (show k < s.pivotstartrow by omega)]
      by_cases hl' : l < s.pivotstartrow
      · rw [if_pos hl']; exact hp2 k l hkl hl'
      · rw [if_neg hl']; exact (hp1 k (by omega)).1
    · intro k g1 g2 c g3
      simp only at g1
      rw [b3 k c g2 (by omega), if_pos (by omega)]
      by_cases hci : c = i
      · rw [hci, hpr, mul_one, CharTwo.add_self_eq_zero]
      · rw [hz k c (by omega) g2 (by omega), hz _ c (le_refl _) (by omega) (by omega), mul_zero, add_zero]

/-- Rows with distinct leading ones are independent, and the others are zero. -/
theorem finrank_echelon {r : Nat} (hr : r ≤ Q) (piv : Nat → Nat)
    (h1 : ∀ k, k < r → piv k < M ∧ ent lm k (piv k) = 1 ∧ ∀ c, c < piv k → ent lm k c = 0)
    (h2 : ∀ k l, k < l → l < r → piv k < piv l) (h3 : ∀ k, r ≤ k → k < Q → ∀ c, c < M → ent lm k c = 0) :
    Module.finrank (ZMod 2) (rowsp Q M lm) = r := by
  let v : Fin r → Fin M → ZMod 2 := fun k => rowv Q M lm ⟨k, by omega⟩
  have hv : LinearIndependent (ZMod 2) v := by
    rw [Fintype.linearIndependent_iff]
    intro g hg
    have : ∀ n (k : Fin r), (k : Nat) = n → g k = 0 := by
      intro n
      induction n using Nat.strong_induction_on with
      | _ n ih =>
        intro k hk
        have hc := congrFun hg ⟨piv k, (h1 k k.2).1⟩
        rw [Finset.sum_apply, Finset.sum_eq_single k] at hc
        · simp only [Pi.smul_apply, smul_eq_mul, Pi.zero_apply] at hc
          rw [show v k ⟨piv k, (h1 k k.2).1⟩ = 1 from (h1 k k.2).2.1, mul_one] at hc
          exact hc
        · intro l _ hl
          simp only [Pi.smul_apply, smul_eq_mul]
          rcases Nat.lt_or_gt_of_ne (fun e => hl (Fin.ext e) : (l : Nat) ≠ k) with hlt | hgt
          · rw [ih l (by omega) l rfl, zero_mul]
          · rw [show v l ⟨piv k, (h1 k k.2).1⟩ = 0 from (h1 l l.2).2.2 _ (h2 k l hgt l.2), mul_zero]
        · intro hx
          exact absurd (Finset.mem_univ k) hx
    exact fun k => this k k rfl
  have he : rowsp Q M lm = Submodule.span (ZMod 2) (Set.range v) := by
    apply le_antisymm
    · refine Submodule.span_le.2 ?_
      rintro _ ⟨k, rfl⟩
      by_cases hk : (k : Nat) < r
      · exact Submodule.subset_span ⟨⟨k, hk⟩, rfl⟩
      · have : rowv Q M lm k = 0 := by
          funext c
          exact h3 k (by omega) k.2 c c.2
        rw [this]
        exact Submodule.zero_mem _
    · refine Submodule.span_mono ?_
      rintro _ ⟨k, rfl⟩
      exact ⟨⟨k, by omega⟩, rfl⟩
  rw [he, finrank_span_eq_card hv, Fintype.card_fin]

theorem nonzero_iff (l : List Nat) (b : Bool) :
    l.foldl (fun nonzero bit => if bit = 1 then true else nonzero) b = true ↔ b = true ∨ 1 ∈ l := by
  induction l generalizing b with
  | nil => simp
  | cons x l ih =>
    rw [List.foldl_cons, ih, List.mem_cons]
    by_cases hx : x = 1
    · subst hx
      simp
    · simp [hx, Ne.symm hx]

theorem Rows.one_mem (h : Rows Q M lm) {k : Nat} (hk : k < Q) : 1 ∈ lm[k]?.getD [] ↔ ∃ c, c < M ∧ ent lm k c = 1 := by
  constructor
  · intro h1
    obtain ⟨c, hc, e⟩ := List.mem_iff_getElem.1 h1
    refine ⟨c, by rw [(h.row hk).1] at hc; exact hc, (h.one_iff c hk).1 ?_⟩
    rw [List.getElem?_eq_getElem hc, e]
    rfl
  · rintro ⟨c, hc, e⟩
    have := (h.one_iff c hk).2 e
    have hc' : c < (lm[k]?.getD []).length := by rw [(h.row hk).1]; exact hc
    rw [List.getElem?_eq_getElem hc'] at this
    exact List.mem_of_getElem this

/-- `rank` of a square matrix -/
theorem rank_run {m : List (List Nat)} {n : Nat} (h : Rows n n m) : rank n m = .ok (Module.finrank (ZMod 2) (rowsp n n m)) := by
  unfold rank row_echelon
  have h0 : Ok (forUp 0 n (⟨m, 0, 0⟩ : Echelon) fun _ s => echelonStep n s) (EInv n n m n) :=
    Ok.forUp (P := EInv n n m) (Nat.zero_le _) ⟨h, rfl, le_refl _, rfl, ⟨id, fun k hk => absurd hk (by simp),
      fun k l _ hl => absurd hl (by simp)⟩, fun k _ _ c hc => absurd hc (by omega)⟩
      (fun i s _ hi hs => echelonStep_run hs hi hi) fun s hs => hs
  obtain ⟨s, e, hs⟩ := h0
  rw [e, C_pure_bind]
  show (do let lm ← (.ok s.lm : C _); _) = _
  rw [C_pure_bind]
  obtain ⟨piv, hp1, hp2⟩ := hs.pivots
  have hf := finrank_echelon (by have := hs.row; omega) piv hp1 hp2 hs.zero
  rw [← hs.span, hf, ← Ok.eq]
  have hr := hs.row
  refine Ok.forUp (P := fun i (k : Nat) => k = min i s.pivotstartrow) (Nat.zero_le _) (by simp) ?_ ?_
  · rintro i k - hi rfl
    rw [hs.shape.ix hi, C_pure_bind, Ok.pure_iff]
    by_cases hk : i < s.pivotstartrow
    · have : (s.lm[i]?.getD []).foldl (fun nonzero bit => if bit = 1 then true else nonzero) false = true :=
        (nonzero_iff _ _).2 (.inr ((hs.shape.one_mem hi).2 ⟨piv i, by have := (hp1 i hk).1; omega, (hp1 i hk).2.1⟩))
      rw [if_pos this]
      omega
    · have : ¬ (s.lm[i]?.getD []).foldl (fun nonzero bit => if bit = 1 then true else nonzero) false = true := by
        rw [nonzero_iff, hs.shape.one_mem hi]
        rintro (h | ⟨c, hc, e⟩)
        · cases h
        · rw [hs.zero i (by omega) hi c hc] at e
          exact absurd e (by decide)
      rw [if_neg this]
      omega
  · rintro k rfl
    omega

theorem finrank_rowsp (Q M : Nat) (m : List (List Nat)) : Module.finrank (ZMod 2) (rowsp Q M m) = (mat Q M m).rank := by
  rw [Matrix.rank_eq_finrank_span_row]
  rfl

/-- If there are more rows than columns, `rank` looks at a column that does not exist. -/
theorem rank_tall {m : List (List Nat)} (h : Rows Q M m) (hQ : M < Q) : rank Q m = .error .oob := by
  have h0 : Ok (forUp 0 M (⟨m, 0, 0⟩ : Echelon) fun _ s => echelonStep Q s) (EInv Q M m M) :=
    Ok.forUp (P := EInv Q M m) (Nat.zero_le _) ⟨h, rfl, le_refl _, rfl, ⟨id, fun k hk => absurd hk (by simp),
      fun k l _ hl => absurd hl (by simp)⟩, fun k _ _ c hc => absurd hc (by omega)⟩
      (fun i s _ hi hs => echelonStep_run hs hi (by omega)) fun s hs => hs
  obtain ⟨s, e, hs⟩ := h0
  have hr := hs.row
  have hc := hs.col
  have h1 : echelonStep Q s = .error .oob := by
    unfold echelonStep findPivot forRet
    rw [show Q - s.pivotstartrow = (Q - s.pivotstartrow - 1) + 1 by omega, List.range'_succ]
    unfold iterStop sp.ix2
    rw [hs.shape.ix (by omega), C_pure_bind, ix_err (by rw [(hs.shape.row (by omega)).1, hc])]
    rfl
  have h2 : (forUp 0 Q (⟨m, 0, 0⟩ : Echelon) fun _ s => echelonStep Q s) = .error .oob := by
    unfold forUp at e ⊢
    rw [Nat.sub_zero] at e ⊢
    rw [show Q = M + ((Q - M - 1) + 1) by omega, ← List.range'_append_1, List.foldlM_append, ]
    rw [show M + (Q - M - 1 + 1) = Q by omega, e, C_pure_bind, List.range'_succ, List.foldlM_cons]
    simp only [h1]
    rfl
  unfold rank row_echelon
  rw [h2]
  rfl

theorem rank_wide_run {m : List (List Nat)} (h : Rows Q M m) (hQ : Q ≤ M) :
    Ok (rank Q m) fun r => (mat Q M m).rank ≤ r ∧ r ≤ Q := by
  unfold rank row_echelon
  have h0 : Ok (forUp 0 Q (⟨m, 0, 0⟩ : Echelon) fun _ s => echelonStep Q s) (EInv Q M m Q) :=
    Ok.forUp (P := EInv Q M m) (Nat.zero_le _) ⟨h, rfl, le_refl _, rfl, ⟨id, fun k hk => absurd hk (by simp),
      fun k l _ hl => absurd hl (by simp)⟩, fun k _ _ c hc => absurd hc (by omega)⟩
      (fun i s _ hi hs => echelonStep_run hs (by omega) hi) fun s hs => hs
  obtain ⟨s, e, hs⟩ := h0
  rw [e, C_pure_bind]
  show Ok (do let lm ← (.ok s.lm : C _); _) _
  rw [C_pure_bind, ← finrank_rowsp, ← hs.span]
  refine Ok.forUp (P := fun i (k : Nat) => k ≤ i ∧ Module.finrank (ZMod 2)
    (Submodule.span (ZMod 2) {x | ∃ j : Fin Q, (j : Nat) < i ∧ x = rowv Q M s.lm j}) ≤ k) (Nat.zero_le _) ⟨le_refl _, ?_⟩ ?_ ?_
  · have : {x | ∃ j : Fin Q, (j : Nat) < 0 ∧ x = rowv Q M s.lm j} = ∅ := by
      ext x; simp
    rw [this, Submodule.span_empty, finrank_bot]
  · rintro i k - hi ⟨h1, h2⟩
    rw [hs.shape.ix hi, C_pure_bind, Ok.pure_iff]
    have e1 : {x | ∃ j : Fin Q, (j : Nat) < i + 1 ∧ x = rowv Q M s.lm j} =
        insert (rowv Q M s.lm ⟨i, hi⟩) {x | ∃ j : Fin Q, (j : Nat) < i ∧ x = rowv Q M s.lm j} := by
      ext x
      constructor
      · rintro ⟨j, hj, rfl⟩
        by_cases hji : (j : Nat) = i
        · left
          congr 1
          exact Fin.ext hji
        · exact .inr ⟨j, by omega, rfl⟩
      · rintro (rfl | ⟨j, hj, rfl⟩)
        · exact ⟨⟨i, hi⟩, Nat.lt_succ_self _, rfl⟩
        · exact ⟨j, by omega, rfl⟩
    rw [e1, Submodule.span_insert]
    by_cases h3 : (s.lm[i]?.getD []).foldl (fun nonzero bit => if bit = 1 then true else nonzero) false = true
    · rw [if_pos h3]
      refine ⟨by omega, ?_⟩
      refine (Submodule.finrank_add_le_finrank_add_finrank _ _).trans ?_
      have := finrank_span_le_card (R := ZMod 2) ({rowv Q M s.lm ⟨i, hi⟩} : Set (Fin M → ZMod 2))
      rw [Set.toFinset_singleton, Finset.card_singleton] at this
      omega
    · rw [if_neg h3]
      refine ⟨by omega, ?_⟩
      have : rowv Q M s.lm ⟨i, hi⟩ = 0 := by
        funext c
        by_contra hne
        exact h3 ((nonzero_iff _ _).2 (.inr ((hs.shape.one_mem hi).2 ⟨c, c.2, zmod2_one hne⟩)))
      rw [this, Submodule.span_zero_singleton, bot_sup_eq]
      exact h2
  · rintro k ⟨h1, h2⟩
    refine ⟨?_, h1⟩
    have he : Set.range (rowv Q M s.lm) = {x | ∃ j : Fin Q, (j : Nat) < Q ∧ x = rowv Q M s.lm j} := by
      ext x
      exact ⟨fun ⟨j, hj⟩ => ⟨j, j.2, hj.symm⟩, fun ⟨j, _, hj⟩ => ⟨j, hj.symm⟩⟩
    unfold rowsp
    rw [he]
    exact h2

theorem rows_from_bits {bits : List Nat} (hb : Bits bits) (h : bits.length = M * Q) : Rows Q M (matrix_from_bits M Q bits) := by
  refine ⟨by simp [matrix_from_bits], fun r hr => ?_⟩
  obtain ⟨k, hk, rfl⟩ := List.mem_map.1 hr
  rw [List.mem_range] at hk
  refine ⟨?_, fun x hx => hb x (mem_of_mem_slice hx)⟩
  have : (k + 1) * M ≤ M * Q := by
    rw [Nat.mul_comm]
    exact Nat.mul_le_mul_left _ hk
  rw [slice_length (by omega), Nat.succ_mul]
  omega

theorem mat_from_bits {bits : List Nat} {a b : Nat} (h : b = a + M * Q) :
    mat Q M (matrix_from_bits M Q (slice bits a b)) = fun (r : Fin Q) (c : Fin M) => bit bits (a + ((r : Nat) * M + c)) := by
  subst h
  ext r c
  have hr := r.2
  have hc := c.2
  have : (r + 1 : Nat) * M ≤ M * Q := by
    rw [Nat.mul_comm]
    exact Nat.mul_le_mul_left _ hr
  rw [Nat.succ_mul] at this
  simp only [mat, matrix_from_bits, List.getElem?_map, List.getElem?_range hr, Option.map_some, Option.getD_some, bit]
  rw [slice_get (by rw [Nat.succ_mul]; omega), slice_get (by omega)]

theorem rank_block {bits : List Nat} (hb : Bits bits) {n i N : Nat} (hi : i < N) (h : N * (n * n) ≤ bits.length) :
    rank n (matrix_from_bits n n (slice bits (i * (n * n)) ((i + 1) * (n * n)))) =
      .ok (Module.finrank (ZMod 2) (rowsp n n (matrix_from_bits n n (slice bits (i * (n * n)) ((i + 1) * (n * n)))))) := by
  refine rank_run (rows_from_bits (fun x hx => hb x (mem_of_mem_slice hx)) ?_)
  rw [slice_length ((Nat.mul_le_mul_right _ hi).trans h), Nat.succ_mul, Nat.add_sub_cancel_left]

theorem rankCounts_run {bits : List Nat} (n N : Nat) (f : Nat → Nat)
    (h : ∀ i, i < N → rank n (matrix_from_bits n n (slice bits (i * (n * n)) ((i + 1) * (n * n)))) = .ok (f i)) :
    rankCounts n n N bits = .ok ((List.range N).countP (fun i => f i = n), (List.range N).countP (fun i => f i + 1 = n),
      (List.range N).countP (fun i => f i ≠ n ∧ f i + 1 ≠ n)) := by
  unfold rankCounts
  rw [← Ok.eq]
  refine Ok.forUp (P := fun k t => t = ((List.range k).countP (fun i => f i = n), (List.range k).countP (fun i => f i + 1 = n),
      (List.range k).countP (fun i => f i ≠ n ∧ f i + 1 ≠ n))) (Nat.zero_le _) rfl ?_ fun _ h => h
  rintro i l - hi rfl
  simp only [h i hi, C_pure_bind, List.range_succ, List.countP_append, List.countP_singleton]
  by_cases h1 : f i = n
  · simp [h1]
  · by_cases h2 : f i + 1 = n
    · simp [h1, h2]
    · simp [h1, h2]

end WB.sp
