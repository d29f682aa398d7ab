import Mathlib.LinearAlgebra.Matrix.GeneralLinearGroup.Card
import Mathlib.Combinatorics.Enumerative.DoubleCounting
import Mathlib.LinearAlgebra.Matrix.Rank
import Mathlib.Algebra.Field.ZMod
import Mathlib.Tactic.FieldSimp
import Mathlib.Tactic.Linarith
import Mathlib.Tactic.Positivity
import Verif.Model.SpRank

/-!
# The number of matrices of full rank and of the rank below (helper lemmas)
-/
namespace WB.sp
open Module LinearMap

abbrev Vec (n : Nat) := Fin n → ZMod 2

variable {n : Nat}

theorem finrank_quot {v : Vec (n + 1)} (hv : v ≠ 0) : finrank (ZMod 2) (Vec (n + 1) ⧸ Submodule.span (ZMod 2) {v}) = n := by
  have h1 := Submodule.finrank_quotient_add_finrank (Submodule.span (ZMod 2) {v})
  rw [finrank_span_singleton hv, finrank_fintype_fun_eq_card, Fintype.card_fin] at h1
  omega

theorem ker_constr {W : Type} [AddCommGroup W] [Module (ZMod 2) W] (b : Basis (Fin n) (ZMod 2) W) {s : Fin n → Vec (n + 1)}
    (hs : LinearIndependent (ZMod 2) s) : ker (b.constr (ZMod 2) s) = ⊥ := by
  rw [LinearMap.ker_eq_bot']
  intro x hx
  rw [Basis.constr_apply] at hx
  have := (linearIndependent_iff.1 hs) (b.repr x) hx
  exact b.repr.map_eq_zero_iff.1 this

/-- The linear maps with a given kernel of dimension 1 -/
noncomputable def kerEquiv {v : Vec (n + 1)} (b : Basis (Fin n) (ZMod 2) (Vec (n + 1) ⧸ Submodule.span (ZMod 2) {v})) :
    {A : Vec (n + 1) →ₗ[ZMod 2] Vec (n + 1) // ker A = Submodule.span (ZMod 2) {v}} ≃
      {s : Fin n → Vec (n + 1) // LinearIndependent (ZMod 2) s} where
  toFun A := ⟨fun i => (Submodule.span (ZMod 2) {v}).liftQ A.1 A.2.ge (b i),
    b.linearIndependent.map' _ (Submodule.ker_liftQ_eq_bot _ _ _ A.2.le)⟩
  invFun s := ⟨(b.constr (ZMod 2) s.1).comp (Submodule.mkQ _), by
    rw [ker_comp, ker_constr b s.2, ← ker, Submodule.ker_mkQ]⟩
  left_inv A := by
    apply Subtype.ext
    ext1
    simp only
    refine LinearMap.ext fun x => ?_
    have : b.constr (ZMod 2) (fun i => (Submodule.span (ZMod 2) {v}).liftQ A.1 A.2.ge (b i)) =
        (Submodule.span (ZMod 2) {v}).liftQ A.1 A.2.ge := b.constr_eq _ fun i => rfl
    simp only [LinearMap.comp_apply]
    rw [this]
    rfl
  right_inv s := by
    apply Subtype.ext
    funext i
    simp only
    have : (Submodule.span (ZMod 2) {v}).liftQ ((b.constr (ZMod 2) s.1).comp (Submodule.mkQ _)) (by
        rw [ker_comp, ker_constr b s.2, ← ker, Submodule.ker_mkQ]) = b.constr (ZMod 2) s.1 := by
      apply Submodule.linearMap_qext
      exact Submodule.liftQ_mkQ _ _ _
    rw [this, Basis.constr_basis]

theorem card_ker {v : Vec (n + 1)} (hv : v ≠ 0) :
    Nat.card {A : Vec (n + 1) →ₗ[ZMod 2] Vec (n + 1) // ker A = Submodule.span (ZMod 2) {v}} = ∏ i : Fin n, (2 ^ (n + 1) - 2 ^ (i : Nat)) := by
  have b := Module.finBasisOfFinrankEq (ZMod 2) (Vec (n + 1) ⧸ Submodule.span (ZMod 2) {v}) (finrank_quot hv)
  rw [Nat.card_congr (kerEquiv b), card_linearIndependent]
  · simp [finrank_fintype_fun_eq_card, ZMod.card]
  · rw [finrank_fintype_fun_eq_card, Fintype.card_fin]
    omega

theorem zmod2_cases (c : ZMod 2) : c = 0 ∨ c = 1 := by
  revert c
  decide

theorem span_inj {v w : Vec (n + 1)} (hv : v ≠ 0) (h : Submodule.span (ZMod 2) {v} = Submodule.span (ZMod 2) {w}) : v = w := by
  have : v ∈ Submodule.span (ZMod 2) {w} := h ▸ Submodule.mem_span_singleton_self v
  obtain ⟨c, e⟩ := Submodule.mem_span_singleton.1 this
  rcases zmod2_cases c with rfl | rfl
  · rw [zero_smul] at e
    exact absurd e.symm hv
  · rw [one_smul] at e
    exact e.symm

theorem rank_eq_iff (A : Matrix (Fin (n + 1)) (Fin (n + 1)) (ZMod 2)) :
    A.rank = n ↔ ∃ v : Vec (n + 1), v ≠ 0 ∧ ker (Matrix.toLin' A) = Submodule.span (ZMod 2) {v} := by
  have h1 := LinearMap.finrank_range_add_finrank_ker (Matrix.toLin' A)
  rw [finrank_fintype_fun_eq_card, Fintype.card_fin] at h1
  have h2 : A.rank = finrank (ZMod 2) (range (Matrix.toLin' A)) := rfl
  rw [h2]
  constructor
  · intro h
    have hk : finrank (ZMod 2) (ker (Matrix.toLin' A)) = 1 := by omega
    obtain ⟨v, hv, hw⟩ := finrank_eq_one_iff'.1 hk
    refine ⟨v, fun e => hv (Subtype.ext e), ?_⟩
    apply le_antisymm
    · intro x hx
      obtain ⟨c, hc⟩ := hw ⟨x, hx⟩
      exact Submodule.mem_span_singleton.2 ⟨c, congrArg Subtype.val hc⟩
    · rw [Submodule.span_singleton_le_iff_mem]
      exact v.2
  · rintro ⟨v, hv, e⟩
    rw [e, finrank_span_singleton hv] at h1
    omega

open Classical in
theorem card_rank_pred : Nat.card {A : Matrix (Fin (n + 1)) (Fin (n + 1)) (ZMod 2) // A.rank = n} =
    (2 ^ (n + 1) - 1) * ∏ i : Fin n, (2 ^ (n + 1) - 2 ^ (i : Nat)) := by
  let e : {A : Matrix (Fin (n + 1)) (Fin (n + 1)) (ZMod 2) // A.rank = n} ≃
      Σ v : {v : Vec (n + 1) // v ≠ 0}, {A : Vec (n + 1) →ₗ[ZMod 2] Vec (n + 1) // ker A = Submodule.span (ZMod 2) {v.1}} :=
    { toFun := fun A => ⟨⟨((rank_eq_iff A.1).1 A.2).choose, ((rank_eq_iff A.1).1 A.2).choose_spec.1⟩,
        ⟨Matrix.toLin' A.1, ((rank_eq_iff A.1).1 A.2).choose_spec.2⟩⟩
      invFun := fun x => ⟨LinearMap.toMatrix' x.2.1, (rank_eq_iff _).2 ⟨x.1.1, x.1.2, by rw [Matrix.toLin'_toMatrix']; exact x.2.2⟩⟩
      left_inv := fun A => Subtype.ext (by simp)
      right_inv := by
        rintro ⟨⟨v, hv⟩, ⟨A, hA⟩⟩
        have hr : (LinearMap.toMatrix' A).rank = n := (rank_eq_iff _).2 ⟨v, hv, by rw [Matrix.toLin'_toMatrix']; exact hA⟩
        have hs := ((rank_eq_iff (LinearMap.toMatrix' A)).1 hr).choose_spec
        have hvw : ((rank_eq_iff (LinearMap.toMatrix' A)).1 hr).choose = v := by
          apply span_inj hs.1
          rw [← hs.2, Matrix.toLin'_toMatrix', hA]
        apply Sigma.ext
        · exact Subtype.ext hvw
        · simp only
          rw [Subtype.heq_iff_coe_eq]
          · simp
          · intro x
            rw [hvw] }
  have hfin : ∀ v : {v : Vec (n + 1) // v ≠ 0}, Finite {A : Vec (n + 1) →ₗ[ZMod 2] Vec (n + 1) // ker A = Submodule.span (ZMod 2) {v.1}} := by
    intro v
    exact @Subtype.finite _ (Finite.of_injective _ LinearMap.toMatrix'.injective) _
  rw [Nat.card_congr e, Nat.card_sigma, Finset.sum_congr rfl fun v _ => card_ker v.2, Finset.sum_const, smul_eq_mul]
  congr 1
  rw [Finset.card_univ, Fintype.card_subtype_compl, Fintype.card_subtype_eq]
  simp [ZMod.card]

theorem card_rank_full (n : Nat) : Nat.card {A : Matrix (Fin n) (Fin n) (ZMod 2) // A.rank = n} = ∏ i : Fin n, (2 ^ n - 2 ^ (i : Nat)) := by
  let e : {A : Matrix (Fin n) (Fin n) (ZMod 2) // A.rank = n} ≃ {s : Fin n → Fin n → ZMod 2 // LinearIndependent (ZMod 2) s} :=
    Equiv.subtypeEquivRight fun A => by
      rw [Matrix.rank_eq_finrank_span_row]
      refine Iff.trans ?_ linearIndependent_iff_card_eq_finrank_span.symm
      rw [Set.finrank, Fintype.card_fin]
      exact eq_comm
  rw [Nat.card_congr e, card_linearIndependent]
  · simp [finrank_fintype_fun_eq_card, ZMod.card]
  · rw [finrank_fintype_fun_eq_card, Fintype.card_fin]

/-! ## The reference probabilities -/

theorem foldl_prod (f : Nat → ℚ) (r : Nat) : (List.range r).foldl (fun p i => p * f i) 1 = ∏ i ∈ Finset.range r, f i := by
  induction r with
  | zero => rfl
  | succ r ih => rw [List.range_succ, List.foldl_append, ih, Finset.prod_range_succ]; rfl

/-- A factor -/
def gq (n i : Nat) : ℚ := 1 - (2 : ℚ) ^ ((i : Int) - n)

theorem gq_eq (n i : Nat) : gq n i = (2 ^ n - 2 ^ i) / 2 ^ n := by
  unfold gq
  rw [zpow_sub₀ (by norm_num), zpow_natCast, zpow_natCast, sub_div, div_self (by positivity)]

theorem gq_ne {n i : Nat} (h : i < n) : gq n i ≠ 0 := by
  rw [gq_eq]
  have : (2 : ℚ) ^ i < 2 ^ n := pow_lt_pow_right₀ (by norm_num) h
  exact ne_of_gt (div_pos (by linarith) (by positivity))

theorem gq_prod (n r : Nat) (h : r ≤ n) : ∏ i ∈ Finset.range r, gq n i = ((∏ i : Fin r, (2 ^ n - 2 ^ (i : Nat)) : Nat) : ℚ) / 2 ^ (n * r) := by
  rw [Fin.prod_univ_eq_prod_range (fun i => 2 ^ n - 2 ^ i), Nat.cast_prod, pow_mul, ← Finset.card_range r, ← Finset.prod_const,
    Finset.card_range, ← Finset.prod_div_distrib]
  refine Finset.prod_congr rfl fun i hi => ?_
  rw [Finset.mem_range] at hi
  rw [gq_eq, Nat.cast_sub (Nat.pow_le_pow_right (by norm_num) (by omega))]
  push_cast
  rfl

theorem rankProb_full (n : Nat) :
    rankProb n n n = (Nat.card {A : Matrix (Fin n) (Fin n) (ZMod 2) // A.rank = n} : ℚ) / 2 ^ (n * n) := by
  rw [card_rank_full, ← gq_prod n n (le_refl _)]
  unfold rankProb
  rw [foldl_prod (fun i => (1 - (2 : ℚ) ^ ((i : Int) - n)) * (1 - (2 : ℚ) ^ ((i : Int) - n)) / (1 - (2 : ℚ) ^ ((i : Int) - n)))]
  have e : (n * (n + n - n) : Int) - n * n = 0 := by ring
  rw [e, zpow_zero, mul_one]
  refine Finset.prod_congr rfl fun i hi => ?_
  exact mul_div_cancel_right₀ _ (gq_ne (Finset.mem_range.1 hi))

theorem telescope (g : Nat → ℚ) (n : Nat) (h : ∀ i, i ≤ n → g i ≠ 0) :
    ∏ i ∈ Finset.range n, g i * g i / g (i + 1) = (∏ i ∈ Finset.range n, g i) * (g 0 / g n) := by
  induction n with
  | zero => simp [div_self (h 0 (le_refl _))]
  | succ n ih =>
    rw [Finset.prod_range_succ, Finset.prod_range_succ, ih fun i hi => h i (by omega)]
    have h1 := h n (by omega)
    have h2 := h (n + 1) (by omega)
    field_simp

theorem rankProb_pred (n : Nat) :
    rankProb (n + 1) (n + 1) n =
      (Nat.card {A : Matrix (Fin (n + 1)) (Fin (n + 1)) (ZMod 2) // A.rank = n} : ℚ) / 2 ^ ((n + 1) * (n + 1)) := by
  rw [card_rank_pred, Nat.cast_mul]
  have e0 : rankProb (n + 1) (n + 1) n =
      (∏ i ∈ Finset.range n, gq (n + 1) i * gq (n + 1) i / gq (n + 1) (i + 1)) * (2 : ℚ)⁻¹ := by
    unfold rankProb
    rw [foldl_prod (fun i => (1 - (2 : ℚ) ^ ((i : Int) - (n + 1 : Nat))) * (1 - (2 : ℚ) ^ ((i : Int) - (n + 1 : Nat))) /
      (1 - (2 : ℚ) ^ ((i : Int) - n)))]
    have e : (n * ((n + 1 : Nat) + (n + 1 : Nat) - n) : Int) - (n + 1 : Nat) * (n + 1 : Nat) = -1 := by push_cast; ring
    rw [e, zpow_neg_one]
    congr 1
    refine Finset.prod_congr rfl fun i _ => ?_
    unfold gq
    congr 3
    push_cast
    ring_nf
  rw [e0, telescope _ _ fun i hi => gq_ne (by omega), gq_prod _ _ (by omega), gq_eq (n + 1) 0, gq_eq (n + 1) n,
    Nat.cast_sub (Nat.one_le_two_pow)]
  push_cast
  have : (2 : ℚ) ^ n ≠ 0 := by positivity
  have h2 : (2 : ℚ) ^ (n + 1) - 2 ^ n = 2 ^ n := by rw [pow_succ]; ring
  rw [h2, show (n + 1) * (n + 1) = (n + 1) * n + (n + 1) by ring, pow_add 2 ((n + 1) * n), pow_zero, pow_succ 2 n]
  field_simp
  ring

end WB.sp
