import Mathlib.Analysis.SpecialFunctions.Gaussian.GaussianIntegral
import Mathlib.MeasureTheory.Integral.IntegralEqImproper
import Mathlib.Order.Interval.Finset.Defs
import Mathlib.Data.Int.Interval
import Verif.Model.SpWalk
import Verif.SpecSpR
import Verif.Proof.SpBase
import Verif.Proof.SpGamma

/-!
# The random walk (helper lemmas)
-/
namespace WB.sp

open MeasureTheory Set

theorem normcdf_eq (x : ℝ) : normcdf x = Phi x := by
  have h5 : (0 : ℝ) < Real.sqrt 0.5 := Real.sqrt_pos.2 (by norm_num)
  have hs : Real.sqrt 0.5 ^ 2 = 0.5 := Real.sq_sqrt (by norm_num)
  have h1 := integral_comp_mul_left_Ioi (fun t : ℝ => Real.exp (-t ^ 2)) (-x) h5
  have h2 := integral_comp_neg_Iic x (fun s : ℝ => Real.exp (-(Real.sqrt 0.5 * s) ^ 2))
  have h3 : ∀ s : ℝ, Real.exp (-(Real.sqrt 0.5 * -s) ^ 2) = Real.exp (-s ^ 2 / 2) := fun s => by
    congr 1
    rw [mul_pow, hs]
    ring
  simp only [h3] at h2
  unfold normcdf erfc Phi
  rw [h2, h1, smul_eq_mul, show -x * Real.sqrt 0.5 = Real.sqrt 0.5 * -x by ring]
  rw [Real.sqrt_mul (by norm_num)]
  have e : Real.sqrt 0.5 = (Real.sqrt 2)⁻¹ := by
    rw [← Real.sqrt_inv]
    norm_num
  rw [e]
  have p2 : (0 : ℝ) < Real.sqrt 2 := Real.sqrt_pos.2 (by norm_num)
  have pp : (0 : ℝ) < Real.sqrt Real.pi := Real.sqrt_pos.2 Real.pi_pos
  field_simp
  norm_num

theorem rangeZ_sum (a b : ℤ) (f : ℤ → ℝ) : ((rangeZ a (b + 1)).map f).sum = ∑ k ∈ Finset.Icc a b, f k := by
  rw [Int.Icc_eq_finset_map, Finset.sum_map, rangeZ, List.map_map]
  have : ∀ n : Nat, ((List.range n).map (f ∘ fun (i : Nat) => a + i)).sum =
      ∑ i ∈ Finset.range n, f ((Nat.castEmbedding.trans (addLeftEmbedding a)) i) := fun n => by
    induction n with
    | zero => rfl
    | succ n ih => rw [List.range_succ, List.map_append, List.sum_append, ih, Finset.sum_range_succ]; simp
  exact this _

theorem normSum_run {n : Nat} (hn : n ≠ 0) (z : Nat) (u v : ℝ) (ks : List ℤ) : normSum n z u v ks =
    .ok ((ks.map fun (k : ℤ) => Phi ((4 * k + u) * z / Real.sqrt n) - Phi ((4 * k + v) * z / Real.sqrt n)).sum) := by
  have hs : Real.sqrt n ≠ 0 := (Real.sqrt_pos.2 (by exact_mod_cast Nat.pos_of_ne_zero hn)).ne'
  have : ∀ (ks : List ℤ) (c : ℝ), ks.foldlM (fun (sum : ℝ) (k : ℤ) => do
      let c ← rdiv ((4 * k + u) * z) (Real.sqrt n)
      let d := normcdf c
      let c ← rdiv ((4 * k + v) * z) (Real.sqrt n)
      let e := normcdf c
      pure (sum + d - e)) c = (.ok (c + (ks.map fun (k : ℤ) => Phi ((4 * k + u) * z / Real.sqrt n) - Phi ((4 * k + v) * z / Real.sqrt n)).sum) : C ℝ) := by
    intro ks
    induction ks with
    | nil => intro c; simp [C_pure_eq]
    | cons k ks ih =>
      intro c
      rw [List.foldlM_cons, rdiv_ok hs, C_pure_bind, rdiv_ok hs, C_pure_bind, C_pure_eq, C_pure_bind, ih, List.map_cons, List.sum_cons]
      simp only [normcdf_eq]
      refine congrArg Except.ok ?_
      ring
  unfold normSum
  rw [this, zero_add]

theorem steps_eq (bits : List Nat) : steps bits = bits.map fun (b : Nat) => 2 * (b : ℤ) - 1 := by
  unfold steps
  refine List.map_congr_left fun b _ => ?_
  ring

theorem walk_eq (bits : List Nat) (k : Nat) : walk bits k = ((steps bits).take k).sum := by
  rw [walk, steps_eq, List.map_take]

theorem walk_all (bits : List Nat) {k : Nat} (hk : bits.length ≤ k) : walk bits k = (steps bits).sum := by
  rw [walk_eq, List.take_of_length_le]
  rw [steps, List.length_map]
  exact hk

theorem max_run (x : List ℤ) : (max_excursion x).1 = x.sum ∧
    IsGreatest {d | ∃ k ≤ x.length, ((x.take k).sum).natAbs = d} (max_excursion x).2 := by
  induction x using List.reverseRecOn with
  | nil => exact ⟨rfl, ⟨0, le_refl _, rfl⟩, fun d ⟨k, _, h⟩ => by subst h; simp [max_excursion]⟩
  | append_singleton x e ih =>
    have hstep : max_excursion (x ++ [e]) = if (x.sum + e).natAbs > (max_excursion x).2 then (x.sum + e, (x.sum + e).natAbs)
        else (x.sum + e, (max_excursion x).2) := by
      rw [← ih.1]
      unfold max_excursion
      rw [List.foldl_append]
      rfl
    have hup : ∀ k, k ≤ (x ++ [e]).length → k ≤ x.length ∧ ((x ++ [e]).take k).sum = (x.take k).sum ∨
        ((x ++ [e]).take k).sum = x.sum + e := fun k hk => by
      by_cases h : k ≤ x.length
      · exact Or.inl ⟨h, by rw [List.take_append_of_le_length h]⟩
      · right
        rw [List.take_of_length_le (by simp at hk ⊢; omega)]
        simp
    obtain ⟨h1, ⟨k0, hk0, h2⟩, h3⟩ := ih
    rw [hstep]
    by_cases hg : (x.sum + e).natAbs > (max_excursion x).2
    · rw [if_pos hg]
      refine ⟨by simp, ⟨x.length + 1, by simp, ?_⟩, ?_⟩
      · rw [List.take_of_length_le (by simp)]
        simp
      · rintro d ⟨k, hk, rfl⟩
        rcases hup k hk with ⟨h, e1⟩ | e1
        · rw [e1]
          exact le_trans (h3 ⟨k, h, rfl⟩) hg.le
        · rw [e1]
    · rw [if_neg hg]
      refine ⟨by simp, ⟨k0, by simp; omega, ?_⟩, ?_⟩
      · rw [List.take_append_of_le_length hk0, h2]
      · rintro d ⟨k, hk, rfl⟩
        rcases hup k hk with ⟨h, e1⟩ | e1
        · rw [e1]
          exact h3 ⟨k, h, rfl⟩
        · rw [e1]
          exact not_lt.1 hg

theorem forward_run (bits : List Nat) : IsGreatest {d | ∃ k ≤ bits.length, (walk bits k).natAbs = d} (max_excursion (steps bits)).2 := by
  have h := (max_run (steps bits)).2
  rw [show (steps bits).length = bits.length by simp [steps]] at h
  simpa only [walk_eq] using h

theorem backward_run (bits : List Nat) : IsGreatest {d | ∃ k ≤ bits.length, (walk bits bits.length - walk bits k).natAbs = d}
    (max_excursion (steps bits).reverse).2 := by
  have h := (max_run (steps bits).reverse).2
  have hl : (steps bits).length = bits.length := by simp [steps]
  rw [List.length_reverse, hl] at h
  have key : ∀ k, k ≤ bits.length → ((steps bits).reverse.take k).sum = walk bits bits.length - walk bits (bits.length - k) := fun k hk => by
    rw [walk_all _ (le_refl _), walk_eq, ← hl, List.take_reverse, List.sum_reverse]
    have := congrArg List.sum (List.take_append_drop ((steps bits).length - k) (steps bits))
    rw [List.sum_append] at this
    linarith
  refine ⟨?_, ?_⟩
  · obtain ⟨k, hk, h1⟩ := h.1
    exact ⟨bits.length - k, by omega, by rw [← key k hk, h1]⟩
  · rintro d ⟨k, hk, rfl⟩
    refine h.2 ⟨bits.length - k, by omega, ?_⟩
    rw [key _ (by omega), show bits.length - (bits.length - k) = k by omega]

theorem sprime_eq (bits : List Nat) : sprime bits = 0 :: (path bits ++ [0]) := by
  have : ∀ x : List ℤ, x.foldl (fun ((pos : ℤ), s) e => (pos + e, s ++ [pos + e])) (0, ([] : List ℤ)) =
      (x.sum, (List.range x.length).map fun i => (x.take (i + 1)).sum) := fun x => by
    induction x using List.reverseRecOn with
    | nil => rfl
    | append_singleton x e ih =>
      rw [List.foldl_append, ih, List.length_append, List.length_singleton, List.range_succ, List.map_append]
      simp only [List.foldl_cons, List.foldl_nil]
      refine Prod.ext (by simp) ?_
      simp only
      refine congrArg₂ _ ?_ ?_
      · refine List.map_congr_left fun i hi => ?_
        rw [List.mem_range] at hi
        rw [List.take_append_of_le_length (by omega)]
      · rw [List.map_singleton, List.take_of_length_le (by simp)]
        simp
  unfold sprime
  rw [this]
  simp only [List.singleton_append, List.cons_append]
  refine congrArg (fun l => (0 : ℤ) :: (l ++ [0])) ?_
  unfold path
  rw [show (steps bits).length = bits.length by simp [steps]]
  exact List.map_congr_left fun i _ => (walk_eq _ _).symm

theorem excursions_exist (p : List ℤ) : ∃ cs, Excursions p cs := by
  induction p with
  | nil => exact ⟨[[]], by simp, rfl⟩
  | cons a p ih =>
    obtain ⟨cs, h1, h2⟩ := ih
    by_cases ha : a = 0
    · refine ⟨[] :: cs, ?_, ?_⟩
      · intro c hc
        rcases List.mem_cons.1 hc with rfl | hc
        · simp
        · exact h1 c hc
      · rw [List.cons_append, h2, ha]
        rfl
    · cases cs with
      | nil => simp at h2
      | cons c cs =>
        refine ⟨(a :: c) :: cs, ?_, ?_⟩
        · intro d hd
          rcases List.mem_cons.1 hd with rfl | hd
          · have := h1 c (List.mem_cons_self ..)
            simp only [List.mem_cons, not_or]
            exact ⟨fun h => ha h.symm, this⟩
          · exact h1 d (List.mem_cons_of_mem _ hd)
        · rw [List.cons_append, h2]
          simp

theorem excursions_length {p : List ℤ} {cs : List (List ℤ)} (h : Excursions p cs) : cs.length = p.count 0 + 1 := by
  have h2 := congrArg (List.count 0) h.2
  rw [List.count_append, List.count_flatten, List.map_map] at h2
  have : ∀ c ∈ cs, (List.count (0 : ℤ) ∘ (· ++ [0])) c = 1 := fun c hc => by
    simp only [Function.comp, List.count_append, List.count_eq_zero.2 (h.1 c hc)]
    rfl
  rw [List.map_congr_left this] at h2
  simpa using h2.symm

theorem excursions_count {p : List ℤ} {cs : List (List ℤ)} (h : Excursions p cs) {x : ℤ} (hx : x ≠ 0) :
    p.count x = (cs.map (List.count x)).sum := by
  have h2 := congrArg (List.count x) h.2
  rw [List.count_append, List.count_flatten, List.map_map] at h2
  have h0 : List.count x [(0 : ℤ)] = 0 := by
    rw [List.count_eq_zero]
    simpa using hx
  have : ∀ c ∈ cs, (List.count x ∘ (· ++ [0])) c = List.count x c := fun c hc => by
    simp only [Function.comp, List.count_append, h0, add_zero]
  rw [List.map_congr_left this, h0, add_zero] at h2
  exact h2

theorem take_cycle_run (c : List ℤ) (hc : (0 : ℤ) ∉ c) : ∀ (pre suf : List ℤ) (fuel : Nat) (acc : List ℤ), c.length < fuel →
    take_cycle (pre ++ (c ++ 0 :: suf)) fuel pre.length acc = .ok (pre.length + c.length, acc ++ c) := by
  induction c with
  | nil =>
    intro pre suf fuel acc hf
    obtain ⟨f, rfl⟩ : ∃ f, fuel = f + 1 := ⟨fuel - 1, by simp at hf; omega⟩
    rw [take_cycle, ix_ok (by simp), C_pure_bind]
    simp [C_pure_eq]
  | cons a c ih =>
    intro pre suf fuel acc hf
    obtain ⟨f, rfl⟩ : ∃ f, fuel = f + 1 := ⟨fuel - 1, by simp at hf; omega⟩
    simp only [List.mem_cons, not_or] at hc
    have ha : a ≠ 0 := fun h => hc.1 h.symm
    have hget : (pre ++ (a :: c ++ 0 :: suf))[pre.length]'(by simp) = a := by simp
    rw [take_cycle, ix_ok (by simp), C_pure_bind, hget, if_pos ha]
    have := ih hc.2 (pre ++ [a]) suf f (acc ++ [a]) (by simp at hf; omega)
    rw [List.append_assoc, List.length_append, List.length_singleton] at this
    rw [show pre ++ (a :: c ++ 0 :: suf) = pre ++ ([a] ++ (c ++ 0 :: suf)) by simp, this]
    simp
    omega

theorem take_cycles_run (cs : List (List ℤ)) (hc : ∀ c ∈ cs, (0 : ℤ) ∉ c) : ∀ (pre : List ℤ) (fuel : Nat) (acc : List (List ℤ)),
    cs.length < fuel → take_cycles (pre ++ (cs.map (· ++ [0])).flatten) fuel pre.length acc =
      .ok (acc ++ cs.map fun c => [0] ++ c ++ [0]) := by
  induction cs with
  | nil =>
    intro pre fuel acc hf
    obtain ⟨f, rfl⟩ : ∃ f, fuel = f + 1 := ⟨fuel - 1, by simp at hf; omega⟩
    rw [take_cycles, if_neg (by simp)]
    simp [C_pure_eq]
  | cons c cs ih =>
    intro pre fuel acc hf
    obtain ⟨f, rfl⟩ : ∃ f, fuel = f + 1 := ⟨fuel - 1, by simp at hf; omega⟩
    have e : pre ++ ((c :: cs).map (· ++ [0])).flatten = pre ++ (c ++ 0 :: (cs.map (· ++ [0])).flatten) := by simp
    rw [take_cycles, if_pos (by rw [e]; simp), e, take_cycle_run c (hc c (List.mem_cons_self ..)) _ _ _ _ (by simp; omega), C_pure_bind]
    simp only
    have := ih (fun d hd => hc d (List.mem_cons_of_mem _ hd)) (pre ++ (c ++ [0])) f (acc ++ [[0] ++ c ++ [0]]) (by simp at hf; omega)
    rw [show pre ++ (c ++ 0 :: (cs.map (· ++ [0])).flatten) = pre ++ (c ++ [0]) ++ (cs.map (· ++ [0])).flatten by simp,
      show pre.length + c.length + 1 = (pre ++ (c ++ [0])).length by simp; omega, this]
    simp

theorem foldl_count (x : ℤ) (l : List ℤ) : ∀ c, l.foldl (fun oc pos => if pos = x then oc + 1 else oc) c = c + l.count x := by
  induction l with
  | nil => simp
  | cons a l ih =>
    intro c
    rw [List.foldl_cons, ih, List.count_cons]
    by_cases h : a = x
    · simp [h]; omega
    · simp [h]

theorem cyclecount_run {cs : List (List ℤ)} {x : ℤ} (hx : x ≠ 0) {k : Nat} (hk : k ≤ 5) :
    cyclecount (cs.map fun c => [0] ++ c ++ [0]) x k = cs.countP fun c => min 5 (c.count x) = k := by
  have h0 : List.count x [(0 : ℤ)] = 0 := by
    rw [List.count_eq_zero]
    simpa using hx
  unfold cyclecount
  rw [List.foldl_map]
  simp only [foldl_count, List.count_append, h0, zero_add, add_zero]
  have : ∀ c0 : Nat, cs.foldl (fun cyclecount cycle =>
      if k < 5 then
        if cycle.count x = k then cyclecount + 1 else cyclecount
      else if k = 5 then
        if cycle.count x ≥ 5 then cyclecount + 1 else cyclecount
      else cyclecount) c0 = c0 + cs.countP fun c => min 5 (c.count x) = k := by
    induction cs with
    | nil => simp
    | cons c cs ih =>
      intro c0
      rw [List.foldl_cons, ih, List.countP_cons]
      by_cases h5 : k < 5
      · rw [if_pos h5]
        by_cases h : c.count x = k
        · rw [if_pos h, if_pos (by simp; omega)]
          omega
        · rw [if_neg h, if_neg (by simp; omega)]
          omega
      · rw [if_neg h5, if_pos (by omega)]
        by_cases h : c.count x ≥ 5
        · rw [if_pos h, if_pos (by simp; omega)]
          omega
        · rw [if_neg h, if_neg (by simp; omega)]
          omega
  rw [this, zero_add]

/-- where the number of visits of `x` is kept -/
def slot (x : ℤ) : Nat := if 0 ≤ x then x.toNat else (x + 19).toNat

theorem slot_lt {x : ℤ} (h : x.natAbs < 10) : slot x < 19 := by
  unfold slot
  split <;> omega

theorem slot_inj {x y : ℤ} (hx : x.natAbs < 10) (hy : y.natAbs < 10) (h : slot x = slot y) : x = y := by
  unfold slot at h
  split at h <;> split at h <;> omega

theorem pos_slot {x : ℤ} (h : x.natAbs < 10) : pos 19 x = .ok (slot x) := by
  unfold pos slot
  by_cases h0 : 0 ≤ x
  · rw [if_pos h0, if_pos h0]
  · rw [if_neg h0, if_neg h0, if_pos (by omega)]
    rfl

theorem ixZ_slot {l : List Nat} (hl : l.length = 19) {x : ℤ} (h : x.natAbs < 10) : ixZ l x = .ok (l[slot x]?.getD 0) := by
  rw [ixZ, hl, pos_slot h, C_pure_bind, ix_getD 0 (by rw [hl]; exact slot_lt h)]

theorem putZ_slot {l : List Nat} (hl : l.length = 19) {x : ℤ} (h : x.natAbs < 10) (v : Nat) : putZ l x v = .ok (l.set (slot x) v) := by
  rw [putZ, hl, pos_slot h, C_pure_bind, put_ok _ (by rw [hl]; exact slot_lt h)]

theorem count_states_run (sp : List ℤ) : Ok (count_states sp) fun c => c.length = 19 ∧ ∀ x : ℤ, x.natAbs < 10 → ixZ c x = .ok (sp.count x) := by
  have : ∀ (sp : List ℤ) (c : List Nat), c.length = 19 → Ok (sp.foldlM (fun count value =>
      if value.natAbs < 10 then do putZ count value ((← ixZ count value) + 1) else pure count) c) fun r => r.length = 19 ∧
      ∀ x : ℤ, x.natAbs < 10 → r[slot x]?.getD 0 = c[slot x]?.getD 0 + sp.count x := by
    intro sp
    induction sp with
    | nil => intro c hc; simp [hc]
    | cons a sp ih =>
      intro c hc
      rw [List.foldlM_cons]
      by_cases ha : a.natAbs < 10
      · rw [if_pos ha, ixZ_slot hc ha, C_pure_bind, putZ_slot hc ha, C_pure_bind]
        refine (ih _ (by simp [hc])).mono ?_
        rintro r ⟨h1, h2⟩
        refine ⟨h1, fun x hx => ?_⟩
        rw [h2 x hx, List.getElem?_set, List.count_cons]
        by_cases h : a = x
        · subst h
          rw [if_pos rfl, if_pos (by rw [hc]; exact slot_lt ha)]
          simp
          omega
        · rw [if_neg fun h' => h (slot_inj ha hx h')]
          simp [h]
      · rw [if_neg ha, C_pure_eq, C_pure_bind]
        refine (ih _ hc).mono ?_
        rintro r ⟨h1, h2⟩
        refine ⟨h1, fun x hx => ?_⟩
        rw [h2 x hx, List.count_cons]
        have : a ≠ x := fun h => ha (h ▸ hx)
        simp [this]
  refine (this sp _ (by simp)).mono ?_
  rintro r ⟨h1, h2⟩
  refine ⟨h1, fun x hx => ?_⟩
  rw [ixZ_slot h1 hx, h2 x hx, List.getElem?_replicate, if_pos (slot_lt hx)]
  simp

theorem count_zeros_run (bits : List Nat) : count_zeros (sprime bits) = (path bits).count 0 + 1 := by
  rw [sprime_eq, count_zeros, List.tail_cons, foldl_count, List.count_append]
  simp

end WB.sp
