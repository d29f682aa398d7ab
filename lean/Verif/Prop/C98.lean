import Verif.Proof.SpWalk

/-!
# C98 — the tests of the random walk (`/repo/test/randomness`)
-/
namespace WB.sp

/-- The P value of SP 800-22, 2.13.4, for `n` bits and the largest distance `z`; `Phi` is the distribution function of the standard
normal distribution. -/
noncomputable def cusumP (n z : Nat) : ℝ :=
  1 - ∑ k ∈ Finset.Icc ⌊(-(n : ℚ) / z + 1) / 4⌋ ⌊((n : ℚ) / z - 1) / 4⌋,
      (Phi ((4 * k + 1) * z / Real.sqrt n) - Phi ((4 * k - 1) * z / Real.sqrt n)) +
    ∑ k ∈ Finset.Icc ⌊(-(n : ℚ) / z - 3) / 4⌋ ⌊((n : ℚ) / z - 1) / 4⌋,
      (Phi ((4 * k + 3) * z / Real.sqrt n) - Phi ((4 * k + 1) * z / Real.sqrt n))

/-- `Phi` is what its name says. -/
theorem C98_Phi (x : ℝ) : normcdf x = (Real.sqrt (2 * Real.pi))⁻¹ * ∫ t in Set.Iic x, Real.exp (-t ^ 2 / 2) := normcdf_eq x

theorem p_value_run {n z : Nat} (hn : n ≠ 0) (hz : z ≠ 0) : p_value n z = .ok (cusumP n z) := by
  have hz' : (z : ℚ) ≠ 0 := by exact_mod_cast hz
  unfold p_value
  simp only [qdiv, if_neg hz', C_pure_bind]
  rw [normSum_run hn, C_pure_bind, normSum_run hn, C_pure_bind, C_pure_eq]
  simp only [rangeZ_sum]
  rfl

/-- The largest distance from the start of the walk, forward. -/
def ForwardMax (bits : List Nat) (z : Nat) : Prop := IsGreatest {d | ∃ k ≤ bits.length, (walk bits k).natAbs = d} z

/-- The same for the walk from the last bit to the first. -/
def BackwardMax (bits : List Nat) (z : Nat) : Prop :=
  IsGreatest {d | ∃ k ≤ bits.length, (walk bits bits.length - walk bits k).natAbs = d} z

theorem walk_one {bits : List Nat} (hb : Bits bits) (h : bits ≠ []) : (walk bits 1).natAbs = 1 := by
  cases bits with
  | nil => exact absurd rfl h
  | cons b l =>
    have := hb b (List.mem_cons_self ..)
    simp only [walk, List.take_succ_cons, List.take_zero, List.map_cons, List.map_nil, List.sum_cons, List.sum_nil]
    omega

theorem walk_last {bits : List Nat} (hb : Bits bits) (h : bits ≠ []) :
    (walk bits bits.length - walk bits (bits.length - 1)).natAbs = 1 := by
  obtain ⟨l, b, rfl⟩ := List.eq_nil_or_concat bits |>.resolve_left h
  rw [List.concat_eq_append] at hb ⊢
  have := hb b (by simp)
  simp only [walk, List.length_append, List.length_singleton, Nat.add_sub_cancel]
  rw [List.take_of_length_le (by simp), List.take_append_of_le_length (le_refl _), List.take_length, List.map_append, List.sum_append]
  simp only [List.map_cons, List.map_nil, List.sum_cons, List.sum_nil]
  omega

/-- C98: the two P values of the cumulative sums test are those of SP 800-22 for the largest distances from the start of the walk, forward
and backward; with at least one bit there is no exception. -/
theorem C98_cusum {bits : List Nat} (hb : Bits bits) (h : bits ≠ []) {zf zb : Nat} (hf : ForwardMax bits zf) (hz : BackwardMax bits zb) :
    cumulative_sums_test bits =
      .ok ⟨0.01 ≤ cusumP bits.length zf ∧ 0.01 ≤ cusumP bits.length zb, [cusumP bits.length zf, cusumP bits.length zb]⟩ := by
  have hl : bits.length ≠ 0 := fun e => h (List.length_eq_zero_iff.1 e)
  have e1 := (forward_run bits).unique hf
  have e2 := (backward_run bits).unique hz
  have f0 : zf ≠ 0 := by
    have : 1 ≤ zf := hf.2 ⟨1, by omega, walk_one hb h⟩
    omega
  have b0 : zb ≠ 0 := by
    have : 1 ≤ zb := hz.2 ⟨bits.length - 1, by omega, walk_last hb h⟩
    omega
  unfold cumulative_sums_test
  simp only [e1, e2]
  rw [p_value_run hl f0, C_pure_bind, p_value_run hl b0, C_pure_bind, C_pure_eq]

/-- The largest distances exist. -/
theorem C98_cusum_exists (bits : List Nat) : (∃ z, ForwardMax bits z) ∧ ∃ z, BackwardMax bits z :=
  ⟨⟨_, forward_run bits⟩, ⟨_, backward_run bits⟩⟩

/-- C98: no bits are a division by zero. -/
theorem C98_cusum_empty : cumulative_sums_test [] = .error .divZero := by
  simp [cumulative_sums_test, steps, max_excursion, p_value, qdiv]

/-- C98: exchanging zeros and ones does not change the result. -/
theorem C98_complement {bits : List Nat} (hb : Bits bits) : cumulative_sums_test (bits.map (1 - ·)) = cumulative_sums_test bits := by
  by_cases h : bits = []
  · subst h; rfl
  have hw : ∀ k, walk (bits.map (1 - ·)) k = -walk bits k := fun k => by
    unfold walk
    rw [← List.map_take]
    have hb' : ∀ x ∈ bits.take k, x < 2 := fun x hx => hb x (List.mem_of_mem_take hx)
    generalize bits.take k = l at hb'
    induction l with
    | nil => rfl
    | cons a l ih =>
      have := hb' a (List.mem_cons_self ..)
      simp only [List.map_cons, List.sum_cons] at ih ⊢
      rw [ih fun x hx => hb' x (List.mem_cons_of_mem _ hx)]
      omega
  obtain ⟨⟨zf, hf⟩, ⟨zb, hz⟩⟩ := C98_cusum_exists bits
  rw [C98_cusum hb h hf hz]
  have := C98_cusum (bits := bits.map (1 - ·)) (fun x hx => by obtain ⟨y, _, rfl⟩ := List.mem_map.1 hx; omega)
    (by simpa using h) (zf := zf) (zb := zb) ?_ ?_
  · simpa using this
  · unfold ForwardMax
    simp only [hw, Int.natAbs_neg, List.length_map]
    exact hf
  · unfold BackwardMax
    simp only [hw, List.length_map]
    have e : ∀ a b : ℤ, (-a - -b).natAbs = (a - b).natAbs := fun a b => by omega
    simp only [e]
    exact hz

/-- C98: reading the bits backward exchanges the two P values. -/
theorem C98_reverse {bits : List Nat} (hb : Bits bits) (h : bits ≠ []) : ∃ p q,
    cumulative_sums_test bits = .ok ⟨0.01 ≤ p ∧ 0.01 ≤ q, [p, q]⟩ ∧
    cumulative_sums_test bits.reverse = .ok ⟨0.01 ≤ q ∧ 0.01 ≤ p, [q, p]⟩ := by
  have hw : ∀ k, k ≤ bits.length → walk bits.reverse k = walk bits bits.length - walk bits (bits.length - k) := fun k hk => by
    unfold walk
    rw [List.take_reverse, List.map_reverse, List.sum_reverse, List.take_length]
    have := congrArg (fun l : List Nat => (l.map fun (b : Nat) => 2 * (b : ℤ) - 1).sum) (List.take_append_drop (bits.length - k) bits)
    simp only [List.map_append, List.sum_append] at this
    linarith
  have h0 : walk bits 0 = 0 := rfl
  obtain ⟨⟨zf, hf⟩, ⟨zb, hz⟩⟩ := C98_cusum_exists bits
  refine ⟨_, _, C98_cusum hb h hf hz, ?_⟩
  have := C98_cusum (bits := bits.reverse) (fun x hx => hb x (List.mem_reverse.1 hx)) (by simpa using h) (zf := zb) (zb := zf) ?_ ?_
  · simpa using this
  · unfold ForwardMax
    rw [List.length_reverse]
    refine ⟨?_, ?_⟩
    · obtain ⟨k, hk, e⟩ := hz.1
      exact ⟨bits.length - k, by omega, by rw [hw _ (by omega), show bits.length - (bits.length - k) = k by omega, e]⟩
    · rintro d ⟨k, hk, rfl⟩
      rw [hw k hk]
      exact hz.2 ⟨_, by omega, rfl⟩
  · unfold BackwardMax
    rw [List.length_reverse]
    have e : ∀ k, k ≤ bits.length → walk bits.reverse bits.length - walk bits.reverse k = walk bits (bits.length - k) := fun k hk => by
      rw [hw _ (le_refl _), hw _ hk, Nat.sub_self, h0]
      ring
    refine ⟨?_, ?_⟩
    · obtain ⟨k, hk, e1⟩ := hf.1
      exact ⟨bits.length - k, by omega, by rw [e _ (by omega), show bits.length - (bits.length - k) = k by omega, e1]⟩
    · rintro d ⟨k, hk, rfl⟩
      rw [e k hk]
      exact hf.2 ⟨_, by omega, rfl⟩

/-- The statistic of SP 800-22, 2.14.4, for the state `x` and the excursions `cs`, with the probabilities of the table in the program. -/
def excursionChisq (cs : List (List ℤ)) (x : ℤ) : ℚ :=
  chiSquare 6 cs.length (fun k => (cs.countP fun c => min 5 (c.count x) = k : Nat)) fun k => (pixk[x.natAbs - 1]?.getD [])[k]?.getD 0

theorem table_len : ∀ i, i < 4 → i < pixk.length ∧ ((pixk[i]?.getD []).length = 6) ∧ ∀ k, k < 6 → (pixk[i]?.getD [])[k]?.getD 0 ≠ 0 := by
  decide +kernel

theorem mapping_get : ∀ i, i < 8 → mapping[i]?.getD 0 ≠ 0 ∧ (mapping[i]?.getD 0).natAbs - 1 < 4 := by
  decide +kernel

theorem excursion_chisq_run {cs : List (List ℤ)} (h : cs ≠ []) {i : Nat} (hi : i < 8) :
    excursion_chisq (excursion_table (cs.map fun c => [0] ++ c ++ [0])) cs.length i (mapping[i]?.getD 0) =
      .ok (excursionChisq cs (mapping[i]?.getD 0)) := by
  obtain ⟨hx, hx4⟩ := mapping_get i hi
  obtain ⟨t1, t2, t3⟩ := table_len _ hx4
  have hJ : (cs.length : ℚ) ≠ 0 := by
    have := List.length_pos_iff.2 h
    positivity
  have hrow : ix (excursion_table (cs.map fun c => [0] ++ c ++ [0])) i = .ok ((List.range 6).map fun k =>
      cyclecount (cs.map fun c => [0] ++ c ++ [0]) (mapping[i]?.getD 0) k) := by
    rw [ix_getD [] (by unfold excursion_table; rw [List.length_map]; exact hi), excursion_table, List.getElem?_map,
      List.getElem?_eq_getElem (show i < mapping.length from hi)]
    rfl
  unfold excursion_chisq excursionChisq chiSquare
  rw [← Ok.eq]
  refine Ok.forUp (P := fun j q => q = ∑ k ∈ Finset.range j,
    ((cs.countP fun c => min 5 (c.count (mapping[i]?.getD 0)) = k : Nat) - (cs.length : ℚ) *
      (pixk[(mapping[i]?.getD 0).natAbs - 1]?.getD [])[k]?.getD 0) ^ 2 /
      (cs.length * (pixk[(mapping[i]?.getD 0).natAbs - 1]?.getD [])[k]?.getD 0)) (Nat.zero_le _) (by simp) ?_ fun _ h => h
  rintro k q - hk rfl
  rw [hrow, ix_getD (l := pixk) [] t1]
  simp only [C_pure_bind]
  rw [ix_getD 0 (by simpa using hk), ix_getD (l := pixk[(mapping[i]?.getD 0).natAbs - 1]?.getD []) (0 : ℚ) (by rw [t2]; exact hk)]
  simp only [C_pure_bind]
  rw [qdiv, if_neg (mul_ne_zero hJ (t3 k hk)), C_pure_bind, C_pure_eq, Ok.ok_iff, Finset.sum_range_succ, List.getElem?_map,
    List.getElem?_range hk, Option.map_some, Option.getD_some, cyclecount_run hx (by omega), pow_two]

theorem excursions_run {bits : List Nat} {cs : List (List ℤ)} (h : Excursions (path bits) cs) :
    take_cycles (sprime bits) ((sprime bits).length + 1) 1 [] = .ok (cs.map fun c => [0] ++ c ++ [0]) := by
  have hrun := take_cycles_run cs h.1 [0] ((sprime bits).length + 1) [] (by
    rw [sprime_eq, excursions_length h]
    simp only [List.length_cons, List.length_append, List.length_nil]
    have := List.count_le_length (a := (0 : ℤ)) (l := path bits)
    omega)
  rw [← h.2, show ([0] : List ℤ) ++ (path bits ++ [0]) = sprime bits from (sprime_eq bits).symm, List.nil_append] at hrun
  exact hrun

/-- C98: the path of the walk, with a 0 added, has exactly one decomposition into excursions; there is one more excursion than visits
of 0. -/
theorem C98_excursions (bits : List Nat) : (∃! cs, Excursions (path bits) cs) ∧
    ∀ cs, Excursions (path bits) cs → cs.length = (path bits).count 0 + 1 ∧
      ∀ x, x ≠ 0 → (path bits).count x = (cs.map (List.count x)).sum := by
  refine ⟨?_, fun _ h => ⟨excursions_length h, fun _ hx => excursions_count h hx⟩⟩
  obtain ⟨cs, h⟩ := excursions_exist (path bits)
  refine ⟨cs, h, fun ds g => ?_⟩
  have h1 := excursions_run h
  rw [excursions_run g] at h1
  have h2 := (Except.ok.injEq _ _).mp h1
  refine List.map_injective_iff.2 (fun c d e => ?_) h2
  simpa using e

/-- C98: the random excursions test computes the eight P values, for the states -4, …, -1, 1, …, 4, from the statistics of SP 800-22 for
the excursions of the walk; there is no exception but those of `gammaincc` (see C94). -/
theorem C98_excursion {bits : List Nat} {cs : List (List ℤ)} (h : Excursions (path bits) cs) :
    random_excursion_test bits =
      (([-4, -3, -2, -1, 1, 2, 3, 4] : List ℤ).mapM fun x => gammaincc (5 / 2) ((excursionChisq cs x : ℝ) / 2)).map
        fun ps => ⟨∀ q ∈ ps, 0.01 ≤ q, ps⟩ := by
  have hne : cs ≠ [] := by
    rintro rfl
    have := excursions_length h
    simp at this
  unfold random_excursion_test
  simp only
  rw [excursions_run h, C_pure_bind, List.length_map]
  have key : ∀ (is : List Nat), (∀ i ∈ is, i < 8) → ∀ (acc : List ℝ) (S : Prop), (S = ∀ q ∈ acc, 0.01 ≤ q) →
      is.foldlM (fun (r : Results) index => do
        let x ← ix mapping index
        let chisq ← excursion_chisq (excursion_table (cs.map fun c => [0] ++ c ++ [0])) cs.length index x
        let p ← gammaincc (5 / 2) ((chisq : ℝ) / 2)
        pure ⟨r.success ∧ ¬ p < 0.01, r.ps ++ [p]⟩) ⟨S, acc⟩ =
      ((is.map fun i => mapping[i]?.getD 0).mapM fun x => gammaincc (5 / 2) ((excursionChisq cs x : ℝ) / 2)).map
        fun ps => (⟨∀ q ∈ acc ++ ps, 0.01 ≤ q, acc ++ ps⟩ : Results) := by
    intro is
    induction is with
    | nil =>
      rintro - acc S rfl
      simp only [List.foldlM_nil, List.map_nil, List.mapM_nil]
      change Except.ok _ = Except.ok _
      simp
    | cons i is ih =>
      rintro hi acc S rfl
      have hi8 := hi i (List.mem_cons_self ..)
      rw [List.foldlM_cons, ix_getD 0 (show i < mapping.length from hi8), C_pure_bind, excursion_chisq_run hne hi8, C_pure_bind,
        List.map_cons, List.mapM_cons]
      cases gammaincc (5 / 2) ((excursionChisq cs (mapping[i]?.getD 0) : ℝ) / 2) with
      | error e => rfl
      | ok p =>
        refine Eq.trans (ih (fun k hk => hi k (List.mem_cons_of_mem _ hk)) (acc ++ [p]) _ ?_) ?_
        · simp only [List.mem_append, List.mem_singleton, not_lt]
          exact propext ⟨fun ⟨g1, g2⟩ q hq => hq.elim (g1 q) fun e => e ▸ g2, fun g => ⟨fun q hq => g q (Or.inl hq), g _ (Or.inr rfl)⟩⟩
        · rw [C_pure_bind]
          cases (is.map fun i => mapping[i]?.getD 0).mapM fun x => gammaincc (5 / 2) ((excursionChisq cs x : ℝ) / 2) with
          | error e => rfl
          | ok ps =>
            change Except.ok _ = Except.ok _
            simp
  exact key (List.range' 0 8) (by decide) [] True (by simp)

/-- C98: the probabilities in the table are those of SP 800-22, 3.14, up to four digits. -/
theorem C98_table : ∀ a : Nat, a < 7 → ∀ k : Nat, k < 6 → |(pixk[a]?.getD [])[k]?.getD 0 -
    (if k = 0 then 1 - 1 / (2 * ((a : ℚ) + 1)) else if k < 5 then 1 / (4 * ((a : ℚ) + 1) ^ 2) * (1 - 1 / (2 * ((a : ℚ) + 1))) ^ (k - 1)
      else 1 / (2 * ((a : ℚ) + 1)) * (1 - 1 / (2 * ((a : ℚ) + 1))) ^ 4)| ≤ 0.0001 / 2 := by
  decide +kernel

/-- C98: the variant of the test computes the 18 P values for the states -9, …, -1, 1, …, 9 from the numbers of visits and the number of
excursions, as in SP 800-22, 2.15.4; there is never an exception. -/
theorem C98_variant (bits : List Nat) :
    let J := (path bits).count 0 + 1
    let p := fun x : ℤ => erfc (|((path bits).count x : ℝ) - J| / Real.sqrt (2 * J * (4 * |(x : ℝ)| - 2)))
    Ok (random_excursion_variant_test bits) fun r =>
      r.ps = [p (-9), p (-8), p (-7), p (-6), p (-5), p (-4), p (-3), p (-2), p (-1), p 1, p 2, p 3, p 4, p 5, p 6, p 7, p 8, p 9] ∧
      (r.success ↔ ∀ q ∈ r.ps, 0.01 ≤ q) := by
  intro J p
  obtain ⟨c, hc, -, h2⟩ := count_states_run (sprime bits)
  unfold random_excursion_variant_test
  simp only
  rw [hc, C_pure_bind, count_zeros_run]
  have hstep : ∀ x : ℤ, x ≠ 0 → x.natAbs < 10 → ∀ r : Results, (do
      let top : ℤ := |((← ixZ c x) : ℤ) - ((path bits).count 0 + 1 : Nat)|
      let bottom := Real.sqrt (2 * ((path bits).count 0 + 1 : Nat) * (4 * x.natAbs - 2))
      let p := erfc (← rdiv top bottom)
      pure (⟨r.success ∧ ¬ p < 0.01, r.ps ++ [p]⟩ : Results)) = (.ok ⟨r.success ∧ ¬ p x < 0.01, r.ps ++ [p x]⟩ : C Results) := by
    intro x hx hx' r
    have h1 : (sprime bits).count x = (path bits).count x := by
      rw [sprime_eq, List.count_cons_of_ne (fun h => hx h.symm), List.count_append, List.count_cons_of_ne (fun h => hx h.symm)]
      rfl
    have h3 : (1 : ℝ) ≤ x.natAbs := by exact_mod_cast (by omega : 1 ≤ x.natAbs)
    have h4 : Real.sqrt (2 * ((path bits).count 0 + 1 : Nat) * (4 * x.natAbs - 2)) ≠ 0 := by
      refine (Real.sqrt_pos.2 ?_).ne'
      refine mul_pos (by positivity) (by linarith)
    rw [h2 x hx', C_pure_bind, h1]
    simp only
    rw [rdiv_ok h4, C_pure_bind, C_pure_eq]
    have h5 : ((x.natAbs : Nat) : ℝ) = |(x : ℝ)| := by
      rw [← Int.cast_abs, Int.abs_eq_natAbs, Int.cast_natCast]
    have h6 : erfc (((|((path bits).count x : ℤ) - ((path bits).count 0 + 1 : Nat)| : ℤ) : ℝ) /
        Real.sqrt (2 * ((path bits).count 0 + 1 : Nat) * (4 * x.natAbs - 2))) = p x := by
      simp only [p, J, h5]
      push_cast
      rfl
    rw [h6]
  have hl : rangeZ (-9) 10 = [-9, -8, -7, -6, -5, -4, -3, -2, -1, 0, 1, 2, 3, 4, 5, 6, 7, 8, 9] := by decide
  have key : ∀ (xs : List ℤ), (∀ x ∈ xs, x.natAbs < 10) → ∀ r : Results, (r.success ↔ ∀ q ∈ r.ps, 0.01 ≤ q) →
      Ok (xs.foldlM (fun r x =>
        if x ≠ 0 then do
          let top : ℤ := |((← ixZ c x) : ℤ) - ((path bits).count 0 + 1 : Nat)|
          let bottom := Real.sqrt (2 * ((path bits).count 0 + 1 : Nat) * (4 * x.natAbs - 2))
          let p := erfc (← rdiv top bottom)
          pure (⟨r.success ∧ ¬ p < 0.01, r.ps ++ [p]⟩ : Results)
        else pure r) r) fun s => s.ps = r.ps ++ (xs.filter (· ≠ 0)).map p ∧ (s.success ↔ ∀ q ∈ s.ps, 0.01 ≤ q) := by
    intro xs
    induction xs with
    | nil => intro _ r hr; exact (Ok.ok_iff _ _).2 ⟨by simp, hr⟩
    | cons x xs ih =>
      intro hx r hr
      have hxs := fun y hy => hx y (List.mem_cons_of_mem _ hy)
      rw [List.foldlM_cons]
      by_cases h0 : x = 0
      · rw [if_neg (by simpa using h0), C_pure_eq, C_pure_bind]
        refine (ih hxs r hr).mono ?_
        rintro s ⟨g1, g2⟩
        refine ⟨?_, g2⟩
        rw [g1, List.filter_cons_of_neg (by simpa using h0)]
      · rw [if_pos h0, hstep x h0 (hx x (List.mem_cons_self ..)), C_pure_bind]
        refine (ih hxs _ ?_).mono ?_
        · simp only [List.mem_append, List.mem_singleton, not_lt]
          rw [hr]
          exact ⟨fun ⟨g1, g2⟩ q hq => hq.elim (g1 q) fun e => e ▸ g2, fun g => ⟨fun q hq => g q (Or.inl hq), g _ (Or.inr rfl)⟩⟩
        · rintro s ⟨g1, g2⟩
          refine ⟨?_, g2⟩
          rw [g1, List.filter_cons_of_pos (by simpa using h0)]
          simp
  have := key (rangeZ (-9) 10) (by rw [hl]; decide) ⟨True, []⟩ (by simp)
  refine this.mono ?_
  rintro r ⟨g1, g2⟩
  refine ⟨?_, g2⟩
  rw [g1, hl]
  rfl

/-- The hypotheses of the theorems above can be met: the walk of the example in the program (and in SP 800-22) and its three excursions. -/
example : Bits [0, 1, 1, 0, 1, 1, 0, 1, 0, 1] ∧ path [0, 1, 1, 0, 1, 1, 0, 1, 0, 1] = [-1, 0, 1, 0, 1, 2, 1, 2, 1, 2] ∧
    Excursions (path [0, 1, 1, 0, 1, 1, 0, 1, 0, 1]) [[-1], [1], [1, 2, 1, 2, 1, 2]] ∧
    ForwardMax [0, 1, 1, 0, 1, 1, 0, 1, 0, 1] 2 := by
  refine ⟨by unfold Bits; decide, by decide, ⟨by decide, by decide⟩, ⟨6, by decide, by decide⟩, ?_⟩
  rintro d ⟨k, hk, rfl⟩
  have : ∀ k, k ≤ 10 → (walk [0, 1, 1, 0, 1, 1, 0, 1, 0, 1] k).natAbs ≤ 2 := by decide
  exact this k hk

end WB.sp
