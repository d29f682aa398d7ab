import Verif.Proof.Tri
import Verif.Proof.ElimAll

/-!
# Random triangular matrices, all sizes

Generated by `tools/gen_c57.py`.
-/
namespace WB.rlud
open Matrix

theorem seeded_adv (w : World) (k : Nat) : (w.adv k).seeded = w.seeded := rfl

theorem OkM_of_eq {α : Type} {x y : CM α} {w w' : World} {Q : α → World → Prop} (h : x w = y w')
    (hy : OkM y w' Q) : OkM x w Q := by
  unfold OkM at hy ⊢
  rw [h]; exact hy

theorem lowM4_ok (M : M4) (w : World) (h : w.randseed ≠ 0x7fffffff#32) :
    OkM (lowM4 M) w (fun A w' => UnitLower (mat4 A) ∧ w' = w.seeded.adv 6) := by
  unfold lowM4
  rw [OkM.bind_iff]
  refine OkM_reseedInt h ?_
  refine (rows_loop (bit := (bitS 4)) (fun r c => r ≤ c) (fun i => i) (Nat.zero_le _) (le_refl _) ?_ M w.seeded
    (fun r _ h => absurd h (Nat.not_lt_zero r))).mono ?_
  · intro i M w _ hi
    rw [OkM.bind_iff, OkM.liftC_iff]
    refine (wr_row rident4 hi (RowSt.start M i)).mono fun M1 h1 => ?_
    exact (flips_row rident4 hi (Nat.zero_le _) (by omega) h1 (D' := fun c => i ≤ c) (fun c hc => ⟨trivial, Or.inr hc⟩) w).mono
      fun _ _ h => ⟨h.1, by rw [h.2, Nat.sub_zero]⟩
  · rintro A w' ⟨hA, rfl⟩
    exact ⟨lower_of hA, congrArg w.seeded.adv (by decide +kernel)⟩

theorem upM4_ok (M : M4) (w : World) (h : w.randseed ≠ 0x7fffffff#32) :
    OkM (upM4 M) w (fun A w' => UnitUpper (mat4 A) ∧ w' = w.seeded.adv 6) := by
  unfold upM4
  rw [OkM.bind_iff]
  refine OkM_reseedInt h ?_
  refine (rows_loop (bit := (bitS 4)) (fun r c => c ≤ r) (fun i => 3 - i) (Nat.zero_le _) (le_refl _) ?_ M w.seeded
    (fun r _ h => absurd h (Nat.not_lt_zero r))).mono ?_
  · intro i M w _ hi
    rw [OkM.bind_iff, OkM.liftC_iff]
    refine (wr_row rident4 hi (RowSt.start M i)).mono fun M1 h1 => ?_
    exact (flips_row rident4 hi (by omega) (le_refl _) h1 (D' := fun c => c ≤ i) (fun c hc => ⟨trivial, Or.inl (by omega)⟩) w).mono
      fun _ _ h => ⟨h.1, by rw [h.2]; congr 1; omega⟩
  · rintro A w' ⟨hA, rfl⟩
    exact ⟨upper_of hA, congrArg w.seeded.adv (by decide +kernel)⟩

theorem upM4_clean (M : M4) (w : World) (h : w.randseed ≠ 0x7fffffff#32) :
    OkM (upM4 M) w (fun A _ => CleanM4 A) := by
  have hid : ∀ j (hj : j < 4), Clean4 identM4[j] := by unfold Clean4; decide
  unfold upM4
  rw [OkM.bind_iff]
  refine OkM_reseedInt h ?_
  refine OkM.forUp (fun i A _ => ∀ r (hr : r < 4), r < i → Clean4 A[r]) (Nat.zero_le _)
    (fun r _ h => absurd h (Nat.not_lt_zero r)) ?_ (fun A _ h i => h i i.2 i.2)
  rintro i A w - hi hA
  rw [OkM.bind_iff, OkM.liftC_iff, rd_ok _ _ hi, C_pure_bind, wr_ok _ _ _ hi, Ok.ok_iff]
  refine OkM.forUp (fun _ A _ => ∀ r (hr : r < 4), r < i + 1 → Clean4 A[r]) (by omega) ?_ ?_
    (fun A _ h => h)
  · intro r hr hlt
    rw [Vector.getElem_set]
    split
    · exact hid i hi
    · exact hA r hr (by omega)
  · intro j A w _ hj hA
    unfold flip
    rw [OkM.bind_iff]
    refine OkM_draw ?_
    rw [OkM.liftC_iff, umod_two, C_pure_bind, Ok.ite_iff]
    refine ⟨fun _ => ?_, fun _ => (Ok.pure_iff _ _).2 hA⟩
    rw [rd_ok _ _ hi, C_pure_bind, rd_ok _ _ hj, C_pure_bind, wr_ok _ _ _ hi, Ok.ok_iff]
    intro r hr hlt
    rw [Vector.getElem_set]
    split
    · exact (hA i hi (by omega)).xor (hid j hj)
    · exact hA r hr hlt

theorem lowM8_ok (M : M8) (w : World) (h : w.randseed ≠ 0x7fffffff#32) :
    OkM (lowM8 M) w (fun A w' => UnitLower (mat8 A) ∧ w' = w.seeded.adv 28) := by
  unfold lowM8
  rw [OkM.bind_iff]
  refine OkM_reseedInt h ?_
  refine (rows_loop (bit := (bitS 8)) (fun r c => r ≤ c) (fun i => i) (Nat.zero_le _) (le_refl _) ?_ M w.seeded
    (fun r _ h => absurd h (Nat.not_lt_zero r))).mono ?_
  · intro i M w _ hi
    rw [OkM.bind_iff, OkM.liftC_iff]
    refine (wr_row rident8 hi (RowSt.start M i)).mono fun M1 h1 => ?_
    exact (flips_row rident8 hi (Nat.zero_le _) (by omega) h1 (D' := fun c => i ≤ c) (fun c hc => ⟨trivial, Or.inr hc⟩) w).mono
      fun _ _ h => ⟨h.1, by rw [h.2, Nat.sub_zero]⟩
  · rintro A w' ⟨hA, rfl⟩
    exact ⟨lower_of hA, congrArg w.seeded.adv (by decide +kernel)⟩

theorem upM8_ok (M : M8) (w : World) (h : w.randseed ≠ 0x7fffffff#32) :
    OkM (upM8 M) w (fun A w' => UnitUpper (mat8 A) ∧ w' = w.seeded.adv 28) := by
  unfold upM8
  rw [OkM.bind_iff]
  refine OkM_reseedInt h ?_
  refine (rows_loop (bit := (bitS 8)) (fun r c => c ≤ r) (fun i => 7 - i) (Nat.zero_le _) (le_refl _) ?_ M w.seeded
    (fun r _ h => absurd h (Nat.not_lt_zero r))).mono ?_
  · intro i M w _ hi
    rw [OkM.bind_iff, OkM.liftC_iff]
    refine (wr_row rident8 hi (RowSt.start M i)).mono fun M1 h1 => ?_
    exact (flips_row rident8 hi (by omega) (le_refl _) h1 (D' := fun c => c ≤ i) (fun c hc => ⟨trivial, Or.inl (by omega)⟩) w).mono
      fun _ _ h => ⟨h.1, by rw [h.2]; congr 1; omega⟩
  · rintro A w' ⟨hA, rfl⟩
    exact ⟨upper_of hA, congrArg w.seeded.adv (by decide +kernel)⟩

theorem lowM16_ok (M : M16) (w : World) (h : w.randseed ≠ 0x7fffffff#32) :
    OkM (lowM16 M) w (fun A w' => UnitLower (mat16 A) ∧ w' = w.seeded.adv 120) := by
  unfold lowM16
  rw [OkM.bind_iff]
  refine OkM_reseedInt h ?_
  refine (rows_loop (bit := (bitS 16)) (fun r c => r ≤ c) (fun i => i) (Nat.zero_le _) (le_refl _) ?_ M w.seeded
    (fun r _ h => absurd h (Nat.not_lt_zero r))).mono ?_
  · intro i M w _ hi
    rw [OkM.bind_iff, OkM.liftC_iff]
    refine (wr_row rident16 hi (RowSt.start M i)).mono fun M1 h1 => ?_
    exact (flips_row rident16 hi (Nat.zero_le _) (by omega) h1 (D' := fun c => i ≤ c) (fun c hc => ⟨trivial, Or.inr hc⟩) w).mono
      fun _ _ h => ⟨h.1, by rw [h.2, Nat.sub_zero]⟩
  · rintro A w' ⟨hA, rfl⟩
    exact ⟨lower_of hA, congrArg w.seeded.adv (by decide +kernel)⟩

theorem upM16_ok (M : M16) (w : World) (h : w.randseed ≠ 0x7fffffff#32) :
    OkM (upM16 M) w (fun A w' => UnitUpper (mat16 A) ∧ w' = w.seeded.adv 120) := by
  unfold upM16
  rw [OkM.bind_iff]
  refine OkM_reseedInt h ?_
  refine (rows_loop (bit := (bitS 16)) (fun r c => c ≤ r) (fun i => 15 - i) (Nat.zero_le _) (le_refl _) ?_ M w.seeded
    (fun r _ h => absurd h (Nat.not_lt_zero r))).mono ?_
  · intro i M w _ hi
    rw [OkM.bind_iff, OkM.liftC_iff]
    refine (wr_row rident16 hi (RowSt.start M i)).mono fun M1 h1 => ?_
    exact (flips_row rident16 hi (by omega) (le_refl _) h1 (D' := fun c => c ≤ i) (fun c hc => ⟨trivial, Or.inl (by omega)⟩) w).mono
      fun _ _ h => ⟨h.1, by rw [h.2]; congr 1; omega⟩
  · rintro A w' ⟨hA, rfl⟩
    exact ⟨upper_of hA, congrArg w.seeded.adv (by decide +kernel)⟩

theorem lowM32_ok (M : M32) (w : World) (h : w.randseed ≠ 0x7fffffff#32) :
    OkM (lowM32 M) w (fun A w' => UnitLower (mat32 A) ∧ w' = w.seeded.adv 496) := by
  unfold lowM32
  rw [OkM.bind_iff]
  refine OkM_reseedInt h ?_
  refine (rows_loop (bit := (bitS 32)) (fun r c => r ≤ c) (fun i => i) (Nat.zero_le _) (le_refl _) ?_ M w.seeded
    (fun r _ h => absurd h (Nat.not_lt_zero r))).mono ?_
  · intro i M w _ hi
    rw [OkM.bind_iff, OkM.liftC_iff]
    refine (wr_row rident32 hi (RowSt.start M i)).mono fun M1 h1 => ?_
    exact (flips_row rident32 hi (Nat.zero_le _) (by omega) h1 (D' := fun c => i ≤ c) (fun c hc => ⟨trivial, Or.inr hc⟩) w).mono
      fun _ _ h => ⟨h.1, by rw [h.2, Nat.sub_zero]⟩
  · rintro A w' ⟨hA, rfl⟩
    exact ⟨lower_of hA, congrArg w.seeded.adv (by decide +kernel)⟩

theorem upM32_ok (M : M32) (w : World) (h : w.randseed ≠ 0x7fffffff#32) :
    OkM (upM32 M) w (fun A w' => UnitUpper (mat32 A) ∧ w' = w.seeded.adv 496) := by
  unfold upM32
  rw [OkM.bind_iff]
  refine OkM_reseedInt h ?_
  refine (rows_loop (bit := (bitS 32)) (fun r c => c ≤ r) (fun i => 31 - i) (Nat.zero_le _) (le_refl _) ?_ M w.seeded
    (fun r _ h => absurd h (Nat.not_lt_zero r))).mono ?_
  · intro i M w _ hi
    rw [OkM.bind_iff, OkM.liftC_iff]
    refine (wr_row rident32 hi (RowSt.start M i)).mono fun M1 h1 => ?_
    exact (flips_row rident32 hi (by omega) (le_refl _) h1 (D' := fun c => c ≤ i) (fun c hc => ⟨trivial, Or.inl (by omega)⟩) w).mono
      fun _ _ h => ⟨h.1, by rw [h.2]; congr 1; omega⟩
  · rintro A w' ⟨hA, rfl⟩
    exact ⟨upper_of hA, congrArg w.seeded.adv (by decide +kernel)⟩

theorem lowM64_ok (M : M64) (w : World) (h : w.randseed ≠ 0x7fffffff#32) :
    OkM (lowM64 M) w (fun A w' => UnitLower (mat64 A) ∧ w' = w.seeded.adv 2016) := by
  unfold lowM64
  rw [OkM.bind_iff]
  refine OkM_reseedInt h ?_
  refine (rows_loop (bit := (bitS 64)) (fun r c => r ≤ c) (fun i => i) (Nat.zero_le _) (le_refl _) ?_ M w.seeded
    (fun r _ h => absurd h (Nat.not_lt_zero r))).mono ?_
  · intro i M w _ hi
    rw [OkM.bind_iff, OkM.liftC_iff]
    refine (wr_row rident64 hi (RowSt.start M i)).mono fun M1 h1 => ?_
    exact (flips_row rident64 hi (Nat.zero_le _) (by omega) h1 (D' := fun c => i ≤ c) (fun c hc => ⟨trivial, Or.inr hc⟩) w).mono
      fun _ _ h => ⟨h.1, by rw [h.2, Nat.sub_zero]⟩
  · rintro A w' ⟨hA, rfl⟩
    exact ⟨lower_of hA, congrArg w.seeded.adv (by decide +kernel)⟩

theorem upM64_ok (M : M64) (w : World) (h : w.randseed ≠ 0x7fffffff#32) :
    OkM (upM64 M) w (fun A w' => UnitUpper (mat64 A) ∧ w' = w.seeded.adv 2016) := by
  unfold upM64
  rw [OkM.bind_iff]
  refine OkM_reseedInt h ?_
  refine (rows_loop (bit := (bitS 64)) (fun r c => c ≤ r) (fun i => 63 - i) (Nat.zero_le _) (le_refl _) ?_ M w.seeded
    (fun r _ h => absurd h (Nat.not_lt_zero r))).mono ?_
  · intro i M w _ hi
    rw [OkM.bind_iff, OkM.liftC_iff]
    refine (wr_row rident64 hi (RowSt.start M i)).mono fun M1 h1 => ?_
    exact (flips_row rident64 hi (by omega) (le_refl _) h1 (D' := fun c => c ≤ i) (fun c hc => ⟨trivial, Or.inl (by omega)⟩) w).mono
      fun _ _ h => ⟨h.1, by rw [h.2]; congr 1; omega⟩
  · rintro A w' ⟨hA, rfl⟩
    exact ⟨upper_of hA, congrArg w.seeded.adv (by decide +kernel)⟩

theorem lowM128_ok (M : M128) (w : World) (h : w.randseed ≠ 0x7fffffff#32) :
    OkM (lowM128 M) w (fun A w' => UnitLower (mat128 A) ∧ w' = w.seeded.adv 8128) := by
  unfold lowM128
  rw [OkM.bind_iff]
  refine OkM_reseedInt h ?_
  rw [OkM.bind_iff]
  refine (rows_loop (bit := bitW) (fun r c => r ≤ c) (fun i => i) (lo := 0) (hi := 64) (by norm_num)
    (by norm_num) ?_ M w.seeded (fun r _ h => absurd h (Nat.not_lt_zero r))).mono ?_
  · intro i M w hlo hhi
    refine OkM.bind (one_row (k := 0) (by norm_num) (by omega) (by norm_num) (by omega) (by omega) (RowSt.start M i)
      (D' := fun c => 0 ≤ c ∧ c < 64) (fun c hc => by omega) _) ?_
    rintro N _ ⟨g, rfl⟩
    refine OkM.bind (flips2_row (k := 0) (by norm_num) (fun j => j) (by omega) (by norm_num) (by omega) (by intros; omega) g
      (D' := fun c => i ≤ c ∧ c < 64) (fun c hc => ⟨by omega, by intros; omega⟩) _) ?_
    rintro N0 _ ⟨g0, rfl⟩
    refine (zero_row (k := 1) (by norm_num) (by omega) (by norm_num) (by omega) g0 (D' := fun c => i ≤ c ∧ c < 128)
      (fun c hc => by omega) _).mono ?_
    rintro A _ ⟨h1, h2⟩
    refine ⟨⟨h1.above, fun hi c hc hd => h1.row hi c hc ⟨hd, hc⟩⟩, ?_⟩
    rw [h2]
    try simp only [adv_adv]
    congr 1
    all_goals omega
  rintro A0 _ ⟨hA0, rfl⟩
  refine (rows_loop (bit := bitW) (fun r c => r ≤ c) (fun i => i) (lo := 64) (hi := 128) (by norm_num)
    (by norm_num) ?_ A0 _ hA0).mono ?_
  · intro i M w hlo hhi
    refine OkM.bind (one_row (k := 1) (by norm_num) (by omega) (by norm_num) (by omega) (by omega) (RowSt.start M i)
      (D' := fun c => 64 ≤ c ∧ c < 128) (fun c hc => by omega) _) ?_
    rintro N _ ⟨g, rfl⟩
    refine OkM.bind (flips2_row (k := 1) (by norm_num) (fun j => j - 64) (by omega) (by norm_num) (by omega) (by intros; omega) g
      (D' := fun c => i ≤ c ∧ c < 128) (fun c hc => ⟨by omega, by intros; omega⟩) _) ?_
    rintro N0 _ ⟨g0, rfl⟩
    refine (flips2_row (k := 0) (by norm_num) (fun j => j) (by omega) (by norm_num) (by omega) (by intros; omega) (g0.weaken (D' := fun c => i ≤ c ∧ c < 128) (fun c hc => by omega))
      (D' := fun c => i ≤ c ∧ c < 128) (fun c hc => ⟨by omega, by intros; omega⟩) _).mono ?_
    rintro A _ ⟨h1, h2⟩
    refine ⟨⟨h1.above, fun hi c hc hd => h1.row hi c hc ⟨hd, hc⟩⟩, ?_⟩
    rw [h2]
    try simp only [adv_adv]
    congr 1
    all_goals omega
  · rintro A1 w' ⟨hA1, rfl⟩
    refine ⟨lower_of hA1, ?_⟩
    simp only [adv_adv]
    exact congrArg w.seeded.adv (by decide +kernel)

theorem upM128_ok (M : M128) (w : World) (h : w.randseed ≠ 0x7fffffff#32) :
    OkM (upM128 M) w (fun A w' => UnitUpper (mat128 A) ∧ w' = w.seeded.adv 8128) := by
  unfold upM128
  rw [OkM.bind_iff]
  refine OkM_reseedInt h ?_
  rw [OkM.bind_iff]
  refine (rows_loop (bit := bitW) (fun r c => c ≤ r) (fun i => 127 - i) (lo := 0) (hi := 64) (by norm_num)
    (by norm_num) ?_ M w.seeded (fun r _ h => absurd h (Nat.not_lt_zero r))).mono ?_
  · intro i M w hlo hhi
    refine OkM.bind (one_row (k := 0) (by norm_num) (by omega) (by norm_num) (by omega) (by omega) (RowSt.start M i)
      (D' := fun c => 0 ≤ c ∧ c < 64) (fun c hc => by omega) _) ?_
    rintro N0 _ ⟨g0, rfl⟩
    refine OkM.bind (flips2_row (k := 0) (by norm_num) (fun j => j) (by omega) (by norm_num) (by omega) (by intros; omega) g0
      (D' := fun c => c ≤ i) (fun c hc => ⟨by omega, by intros; omega⟩) _) ?_
    rintro N1 _ ⟨g1, rfl⟩
    refine (flips2_row (k := 1) (by norm_num) (fun j => j) (by omega) (by norm_num) (by omega) (by intros; omega) g1
      (D' := fun c => c ≤ i) (fun c hc => ⟨by omega, by intros; omega⟩) _).mono ?_
    rintro A _ ⟨h1, h2⟩
    refine ⟨h1.weaken (fun c hc => by omega), ?_⟩
    rw [h2]
    try simp only [adv_adv]
    congr 1
    all_goals omega
  rintro A0 _ ⟨hA0, rfl⟩
  refine (rows_loop (bit := bitW) (fun r c => c ≤ r) (fun i => 127 - i) (lo := 64) (hi := 128) (by norm_num)
    (by norm_num) ?_ A0 _ hA0).mono ?_
  · intro i M w hlo hhi
    refine OkM.bind (one_row (k := 1) (by norm_num) (by omega) (by norm_num) (by omega) (by omega) (RowSt.start M i)
      (D' := fun c => 64 ≤ c ∧ c < 128) (fun c hc => by omega) _) ?_
    rintro N0 _ ⟨g0, rfl⟩
    refine OkM.bind (flips2_row (k := 1) (by norm_num) (fun j => j - 64) (by omega) (by norm_num) (by omega) (by intros; omega) g0
      (D' := fun c => 64 ≤ c ∧ c ≤ i) (fun c hc => ⟨by omega, by intros; omega⟩) _) ?_
    rintro N1 _ ⟨g1, rfl⟩
    refine (zero_row (k := 0) (by norm_num) (by omega) (by norm_num) (by omega) g1 (D' := fun c => c ≤ i)
      (fun c hc => by omega) _).mono ?_
    rintro A _ ⟨h1, h2⟩
    refine ⟨h1.weaken (fun c hc => by omega), ?_⟩
    rw [h2]
    try simp only [adv_adv]
    congr 1
    all_goals omega
  · rintro A1 w' ⟨hA1, rfl⟩
    refine ⟨upper_of fun r hr h c hc hle => hA1 r hr h c hc hle, ?_⟩
    simp only [adv_adv]
    exact congrArg w.seeded.adv (by decide +kernel)

theorem lowM256_ok (M : M256) (w : World) (h : w.randseed ≠ 0x7fffffff#32) :
    OkM (lowM256 M) w (fun A w' => UnitLower (mat256 A) ∧ w' = w.seeded.adv 32640) := by
  unfold lowM256
  rw [OkM.bind_iff]
  refine OkM_reseedInt h ?_
  rw [OkM.bind_iff]
  refine (rows_loop (bit := bitW) (fun r c => r ≤ c) (fun i => i) (lo := 0) (hi := 64) (by norm_num)
    (by norm_num) ?_ M w.seeded (fun r _ h => absurd h (Nat.not_lt_zero r))).mono ?_
  · intro i M w hlo hhi
    refine OkM.bind (one_row (k := 0) (by norm_num) (by omega) (by norm_num) (by omega) (by omega) (RowSt.start M i)
      (D' := fun c => 0 ≤ c ∧ c < 64) (fun c hc => by omega) _) ?_
    rintro N _ ⟨g, rfl⟩
    refine OkM.bind (flips2_row (k := 0) (by norm_num) (fun j => j) (by omega) (by norm_num) (by omega) (by intros; omega) g
      (D' := fun c => i ≤ c ∧ c < 64) (fun c hc => ⟨by omega, by intros; omega⟩) _) ?_
    rintro N0 _ ⟨g0, rfl⟩
    refine OkM.bind (zero_row (k := 1) (by norm_num) (by omega) (by norm_num) (by omega) g0 (D' := fun c => i ≤ c ∧ c < 128)
      (fun c hc => by omega) _) ?_
    rintro N1 _ ⟨g1, rfl⟩
    refine OkM.bind (zero_row (k := 2) (by norm_num) (by omega) (by norm_num) (by omega) g1 (D' := fun c => i ≤ c ∧ c < 192)
      (fun c hc => by omega) _) ?_
    rintro N2 _ ⟨g2, rfl⟩
    refine (zero_row (k := 3) (by norm_num) (by omega) (by norm_num) (by omega) g2 (D' := fun c => i ≤ c ∧ c < 256)
      (fun c hc => by omega) _).mono ?_
    rintro A _ ⟨h1, h2⟩
    refine ⟨⟨h1.above, fun hi c hc hd => h1.row hi c hc ⟨hd, hc⟩⟩, ?_⟩
    rw [h2]
    try simp only [adv_adv]
    congr 1
    all_goals omega
  rintro A0 _ ⟨hA0, rfl⟩
  rw [OkM.bind_iff]
  refine (rows_loop (bit := bitW) (fun r c => r ≤ c) (fun i => i) (lo := 64) (hi := 128) (by norm_num)
    (by norm_num) ?_ A0 _ hA0).mono ?_
  · intro i M w hlo hhi
    refine OkM.bind (one_row (k := 1) (by norm_num) (by omega) (by norm_num) (by omega) (by omega) (RowSt.start M i)
      (D' := fun c => 64 ≤ c ∧ c < 128) (fun c hc => by omega) _) ?_
    rintro N _ ⟨g, rfl⟩
    refine OkM.bind (flips2_row (k := 1) (by norm_num) (fun j => j - 64) (by omega) (by norm_num) (by omega) (by intros; omega) g
      (D' := fun c => i ≤ c ∧ c < 128) (fun c hc => ⟨by omega, by intros; omega⟩) _) ?_
    rintro N0 _ ⟨g0, rfl⟩
    refine OkM.bind (flips2_row (k := 0) (by norm_num) (fun j => j) (by omega) (by norm_num) (by omega) (by intros; omega) g0
      (D' := fun c => i ≤ c ∧ c < 128) (fun c hc => ⟨by omega, by intros; omega⟩) _) ?_
    rintro N1 _ ⟨g1, rfl⟩
    refine OkM.bind (zero_row (k := 2) (by norm_num) (by omega) (by norm_num) (by omega) g1 (D' := fun c => i ≤ c ∧ c < 192)
      (fun c hc => by omega) _) ?_
    rintro N2 _ ⟨g2, rfl⟩
    refine (zero_row (k := 3) (by norm_num) (by omega) (by norm_num) (by omega) g2 (D' := fun c => i ≤ c ∧ c < 256)
      (fun c hc => by omega) _).mono ?_
    rintro A _ ⟨h1, h2⟩
    refine ⟨⟨h1.above, fun hi c hc hd => h1.row hi c hc ⟨hd, hc⟩⟩, ?_⟩
    rw [h2]
    try simp only [adv_adv]
    congr 1
    all_goals omega
  rintro A1 _ ⟨hA1, rfl⟩
  rw [OkM.bind_iff]
  refine (rows_loop (bit := bitW) (fun r c => r ≤ c) (fun i => i) (lo := 128) (hi := 192) (by norm_num)
    (by norm_num) ?_ A1 _ hA1).mono ?_
  · intro i M w hlo hhi
    refine OkM.bind (one_row (k := 2) (by norm_num) (by omega) (by norm_num) (by omega) (by omega) (RowSt.start M i)
      (D' := fun c => 128 ≤ c ∧ c < 192) (fun c hc => by omega) _) ?_
    rintro N _ ⟨g, rfl⟩
    refine OkM.bind (flips2_row (k := 2) (by norm_num) (fun j => j - 128) (by omega) (by norm_num) (by omega) (by intros; omega) g
      (D' := fun c => i ≤ c ∧ c < 192) (fun c hc => ⟨by omega, by intros; omega⟩) _) ?_
    rintro N0 _ ⟨g0, rfl⟩
    refine OkM.bind (flips2_row (k := 1) (by norm_num) (fun j => j - 64) (by omega) (by norm_num) (by omega) (by intros; omega) g0
      (D' := fun c => i ≤ c ∧ c < 192) (fun c hc => ⟨by omega, by intros; omega⟩) _) ?_
    rintro N1 _ ⟨g1, rfl⟩
    refine OkM.bind (flips2_row (k := 0) (by norm_num) (fun j => j) (by omega) (by norm_num) (by omega) (by intros; omega) g1
      (D' := fun c => i ≤ c ∧ c < 192) (fun c hc => ⟨by omega, by intros; omega⟩) _) ?_
    rintro N2 _ ⟨g2, rfl⟩
    refine (zero_row (k := 3) (by norm_num) (by omega) (by norm_num) (by omega) g2 (D' := fun c => i ≤ c ∧ c < 256)
      (fun c hc => by omega) _).mono ?_
    rintro A _ ⟨h1, h2⟩
    refine ⟨⟨h1.above, fun hi c hc hd => h1.row hi c hc ⟨hd, hc⟩⟩, ?_⟩
    rw [h2]
    try simp only [adv_adv]
    congr 1
    all_goals omega
  rintro A2 _ ⟨hA2, rfl⟩
  refine (rows_loop (bit := bitW) (fun r c => r ≤ c) (fun i => i) (lo := 192) (hi := 256) (by norm_num)
    (by norm_num) ?_ A2 _ hA2).mono ?_
  · intro i M w hlo hhi
    refine OkM.bind (one_row (k := 3) (by norm_num) (by omega) (by norm_num) (by omega) (by omega) (RowSt.start M i)
      (D' := fun c => 192 ≤ c ∧ c < 256) (fun c hc => by omega) _) ?_
    rintro N _ ⟨g, rfl⟩
    refine OkM.bind (flips2_row (k := 3) (by norm_num) (fun j => j - 192) (by omega) (by norm_num) (by omega) (by intros; omega) g
      (D' := fun c => i ≤ c ∧ c < 256) (fun c hc => ⟨by omega, by intros; omega⟩) _) ?_
    rintro N0 _ ⟨g0, rfl⟩
    refine OkM.bind (flips2_row (k := 2) (by norm_num) (fun j => j - 128) (by omega) (by norm_num) (by omega) (by intros; omega) g0
      (D' := fun c => i ≤ c ∧ c < 256) (fun c hc => ⟨by omega, by intros; omega⟩) _) ?_
    rintro N1 _ ⟨g1, rfl⟩
    refine OkM.bind (flips2_row (k := 1) (by norm_num) (fun j => j - 64) (by omega) (by norm_num) (by omega) (by intros; omega) g1
      (D' := fun c => i ≤ c ∧ c < 256) (fun c hc => ⟨by omega, by intros; omega⟩) _) ?_
    rintro N2 _ ⟨g2, rfl⟩
    refine (flips2_row (k := 0) (by norm_num) (fun j => j) (by omega) (by norm_num) (by omega) (by intros; omega) (g2.weaken (D' := fun c => i ≤ c ∧ c < 256) (fun c hc => by omega))
      (D' := fun c => i ≤ c ∧ c < 256) (fun c hc => ⟨by omega, by intros; omega⟩) _).mono ?_
    rintro A _ ⟨h1, h2⟩
    refine ⟨⟨h1.above, fun hi c hc hd => h1.row hi c hc ⟨hd, hc⟩⟩, ?_⟩
    rw [h2]
    try simp only [adv_adv]
    congr 1
    all_goals omega
  · rintro A3 w' ⟨hA3, rfl⟩
    refine ⟨lower_of hA3, ?_⟩
    simp only [adv_adv]
    exact congrArg w.seeded.adv (by decide +kernel)

/-- The flips of line 347 on a machine where the rows follow each other: they hit the next row. -/
theorem flips_next {M0 M : M256} {i : Nat} (hi : 192 ≤ i ∧ i < 256) {D : Nat → Prop}
    (h : RowSt 256 bitW M0 i D M) (w0 : World) :
    OkM (forUp (i + 1) 256 M fun j M => flip2X .flat M i 4 identM64 (j - 192)) w0
      (fun M' w' => RowSt 256 bitW M0 i D M' ∧ w' = w0.adv (255 - i)) := by
  refine OkM.forUp (fun j M' w' => RowSt 256 bitW M0 i D M' ∧ w' = w0.adv (j - (i + 1))) (by omega)
    ⟨h, by rw [Nat.sub_self, adv_zero]⟩ ?_ ?_
  · rintro j M1 w1 hj1 hj2 ⟨h1, rfl⟩
    show OkM (flip2 M1 (i + 4 / 4) (4 % 4) identM64 (j - 192)) _ _
    unfold flip2
    rw [OkM.bind_iff]
    refine OkM_draw ?_
    have hw : ((w0.adv (j - (i + 1))).adv 1) = w0.adv (j + 1 - (i + 1)) := by
      rw [adv_adv]; congr 1; omega
    rw [OkM.liftC_iff, umod_two, C_pure_bind, Ok.ite_iff]
    refine ⟨fun _ => ?_, fun _ => (Ok.pure_iff _ _).2 ⟨h1, hw⟩⟩
    have hi1 : i + 4 / 4 < 256 := by omega
    rw [rd2_ok _ _ _ hi1 (by norm_num), C_pure_bind, rd_ok _ _ (by omega), C_pure_bind,
      wr2_ok _ _ _ _ hi1 (by norm_num), Ok.ok_iff]
    refine ⟨⟨fun r hr hlt => ?_, fun hi' c hc hd => ?_⟩, hw⟩
    · rw [Vector.getElem_set_ne _ _ (by omega)]; exact h1.above r hr hlt
    · rw [Vector.getElem_set_ne _ _ (by omega)]; exact h1.row hi' c hc hd
  · rintro M' w' ⟨h1, h2⟩
    exact ⟨h1, by rw [h2]; congr 1; omega⟩

theorem upM256_ok (M : M256) (w : World) (h : w.randseed ≠ 0x7fffffff#32) :
    OkM (upM256 .flat M) w (fun A w' => UnitUpper (mat256 A) ∧ (∀ i j : Fin 256, 192 ≤ i.val → mat256 A i j = if i = j then 1 else 0) ∧ w' = w.seeded.adv 32640) := by
  unfold upM256
  rw [OkM.bind_iff]
  refine OkM_reseedInt h ?_
  rw [OkM.bind_iff]
  refine (rows_loop (bit := bitW) (fun r c => c ≤ r ∨ 192 ≤ r) (fun i => 255 - i) (lo := 0) (hi := 64) (by norm_num)
    (by norm_num) ?_ M w.seeded (fun r _ h => absurd h (Nat.not_lt_zero r))).mono ?_
  · intro i M w hlo hhi
    refine OkM.bind (one_row (k := 0) (by norm_num) (by omega) (by norm_num) (by omega) (by omega) (RowSt.start M i)
      (D' := fun c => 0 ≤ c ∧ c < 64) (fun c hc => by omega) _) ?_
    rintro N0 _ ⟨g0, rfl⟩
    refine OkM.bind (flips2_row (k := 0) (by norm_num) (fun j => j) (by omega) (by norm_num) (by omega) (by intros; omega) g0
      (D' := fun c => c ≤ i) (fun c hc => ⟨by omega, by intros; omega⟩) _) ?_
    rintro N1 _ ⟨g1, rfl⟩
    refine OkM.bind (flips2_row (k := 1) (by norm_num) (fun j => j - 64) (by omega) (by norm_num) (by omega) (by intros; omega) g1
      (D' := fun c => c ≤ i) (fun c hc => ⟨by omega, by intros; omega⟩) _) ?_
    rintro N2 _ ⟨g2, rfl⟩
    refine OkM.bind (flips2_row (k := 2) (by norm_num) (fun j => j - 128) (by omega) (by norm_num) (by omega) (by intros; omega) g2
      (D' := fun c => c ≤ i) (fun c hc => ⟨by omega, by intros; omega⟩) _) ?_
    rintro N3 _ ⟨g3, rfl⟩
    refine (flips2_row (k := 3) (by norm_num) (fun j => j - 192) (by omega) (by norm_num) (by omega) (by intros; omega) g3
      (D' := fun c => c ≤ i) (fun c hc => ⟨by omega, by intros; omega⟩) _).mono ?_
    rintro A _ ⟨h1, h2⟩
    refine ⟨h1.weaken (fun c hc => by omega), ?_⟩
    rw [h2]
    try simp only [adv_adv]
    congr 1
    all_goals omega
  rintro A0 _ ⟨hA0, rfl⟩
  rw [OkM.bind_iff]
  refine (rows_loop (bit := bitW) (fun r c => c ≤ r ∨ 192 ≤ r) (fun i => 255 - i) (lo := 64) (hi := 128) (by norm_num)
    (by norm_num) ?_ A0 _ hA0).mono ?_
  · intro i M w hlo hhi
    refine OkM.bind (zero_row (k := 0) (by norm_num) (by omega) (by norm_num) (by omega) (RowSt.start M i) (D' := fun c => c < 64)
      (fun c hc => Or.inl (by omega)) _) ?_
    rintro N0 _ ⟨g0, rfl⟩
    refine OkM.bind (one_row (k := 1) (by norm_num) (by omega) (by norm_num) (by omega) (by omega) g0
      (D' := fun c => 0 ≤ c ∧ c < 128) (fun c hc => by omega) _) ?_
    rintro N1 _ ⟨g1, rfl⟩
    refine OkM.bind (flips2_row (k := 1) (by norm_num) (fun j => j - 64) (by omega) (by norm_num) (by omega) (by intros; omega) g1
      (D' := fun c => c ≤ i) (fun c hc => ⟨by omega, by intros; omega⟩) _) ?_
    rintro N2 _ ⟨g2, rfl⟩
    refine OkM.bind (flips2_row (k := 2) (by norm_num) (fun j => j - 128) (by omega) (by norm_num) (by omega) (by intros; omega) g2
      (D' := fun c => c ≤ i) (fun c hc => ⟨by omega, by intros; omega⟩) _) ?_
    rintro N3 _ ⟨g3, rfl⟩
    refine (flips2_row (k := 3) (by norm_num) (fun j => j - 192) (by omega) (by norm_num) (by omega) (by intros; omega) g3
      (D' := fun c => c ≤ i) (fun c hc => ⟨by omega, by intros; omega⟩) _).mono ?_
    rintro A _ ⟨h1, h2⟩
    refine ⟨h1.weaken (fun c hc => by omega), ?_⟩
    rw [h2]
    try simp only [adv_adv]
    congr 1
    all_goals omega
  rintro A1 _ ⟨hA1, rfl⟩
  rw [OkM.bind_iff]
  refine (rows_loop (bit := bitW) (fun r c => c ≤ r ∨ 192 ≤ r) (fun i => 255 - i) (lo := 128) (hi := 192) (by norm_num)
    (by norm_num) ?_ A1 _ hA1).mono ?_
  · intro i M w hlo hhi
    refine OkM.bind (zero_row (k := 0) (by norm_num) (by omega) (by norm_num) (by omega) (RowSt.start M i) (D' := fun c => c < 64)
      (fun c hc => Or.inl (by omega)) _) ?_
    rintro N0 _ ⟨g0, rfl⟩
    refine OkM.bind (zero_row (k := 1) (by norm_num) (by omega) (by norm_num) (by omega) g0 (D' := fun c => c < 128)
      (fun c hc => by omega) _) ?_
    rintro N1 _ ⟨g1, rfl⟩
    refine OkM.bind (one_row (k := 2) (by norm_num) (by omega) (by norm_num) (by omega) (by omega) g1
      (D' := fun c => 0 ≤ c ∧ c < 192) (fun c hc => by omega) _) ?_
    rintro N2 _ ⟨g2, rfl⟩
    refine OkM.bind (flips2_row (k := 2) (by norm_num) (fun j => j - 128) (by omega) (by norm_num) (by omega) (by intros; omega) g2
      (D' := fun c => c ≤ i) (fun c hc => ⟨by omega, by intros; omega⟩) _) ?_
    rintro N3 _ ⟨g3, rfl⟩
    refine (flips2_row (k := 3) (by norm_num) (fun j => j - 192) (by omega) (by norm_num) (by omega) (by intros; omega) g3
      (D' := fun c => c ≤ i) (fun c hc => ⟨by omega, by intros; omega⟩) _).mono ?_
    rintro A _ ⟨h1, h2⟩
    refine ⟨h1.weaken (fun c hc => by omega), ?_⟩
    rw [h2]
    try simp only [adv_adv]
    congr 1
    all_goals omega
  rintro A2 _ ⟨hA2, rfl⟩
  refine (rows_loop (bit := bitW) (fun r c => c ≤ r ∨ 192 ≤ r) (fun i => 255 - i) (lo := 192) (hi := 256) (by norm_num)
    (by norm_num) ?_ A2 _ hA2).mono ?_
  · intro i M w hlo hhi
    refine OkM.bind (zero_row (k := 0) (by norm_num) (by omega) (by norm_num) (by omega) (RowSt.start M i) (D' := fun c => c < 64)
      (fun c hc => Or.inl (by omega)) _) ?_
    rintro N0 _ ⟨g0, rfl⟩
    refine OkM.bind (zero_row (k := 1) (by norm_num) (by omega) (by norm_num) (by omega) g0 (D' := fun c => c < 128)
      (fun c hc => by omega) _) ?_
    rintro N1 _ ⟨g1, rfl⟩
    refine OkM.bind (zero_row (k := 2) (by norm_num) (by omega) (by norm_num) (by omega) g1 (D' := fun c => c < 192)
      (fun c hc => by omega) _) ?_
    rintro N2 _ ⟨g2, rfl⟩
    refine OkM.bind (one_row (k := 3) (by norm_num) (by omega) (by norm_num) (by omega) (by omega) g2
      (D' := fun c => 0 ≤ c ∧ c < 256) (fun c hc => by omega) _) ?_
    rintro N3 _ ⟨g3, rfl⟩
    refine (flips_next (by omega) g3 _).mono ?_
    rintro A _ ⟨h1, h2⟩
    refine ⟨⟨h1.above, fun hi c hc _ => h1.row hi c hc (by omega)⟩, h2⟩
  · rintro A3 w' ⟨hA3, rfl⟩
    refine ⟨upper_of fun r hr h c hc hle => hA3 r hr h c hc (Or.inl hle), ?_, ?_⟩
    · intro i j hi
      simp only [matOf, Fin.getElem_fin]
      rw [hA3 i i.2 i.2 j j.2 (Or.inr hi)]
      by_cases e : i = j
      · subst e; simp [bitF]
      · rw [if_neg e]
        have : j.val ≠ i.val := fun e' => e (Fin.ext e'.symm)
        simp [bitF, this]
    simp only [adv_adv]
    exact congrArg w.seeded.adv (by decide +kernel)

/-! ## Line 347 as ISO C reads it -/

/-- The `k`-th next draw is odd. -/
def OddDraw (w : World) (k : Nat) : Prop := (w.draw k).toNat % 2 = 1

instance (w : World) (k : Nat) : Decidable (OddDraw w k) := inferInstanceAs (Decidable (_ = _))

theorem odd_adv (w : World) (a k : Nat) : OddDraw (w.adv a) k ↔ OddDraw w (a + k) := by
  unfold OddDraw; rw [draw_adv]

/-- `x` makes `d` draws and faults at the first odd one. -/
def Guarded {α : Type} (d : Nat) (x : CM α) (w : World) (Q : α → Prop) : Prop :=
  ((∃ k, k < d ∧ OddDraw w k) → x w = .error .oob) ∧
  ((∀ k, k < d → ¬ OddDraw w k) → ∃ a, x w = .ok (a, w.adv d) ∧ Q a)

theorem guarded_flip {M : M256} {i j : Nat} (w : World) :
    Guarded 1 (flip2 M i 4 identM64 j) w (fun M' => M' = M) := by
  have hrun : flip2 M i 4 identM64 j w = if OddDraw w 0 then .error .oob else .ok (M, w.adv 1) := by
    unfold flip2
    rw [CM_bind_run (cus_random_run' w), umod_two, C_pure_bind]
    have hiff : ((w.draw 0).umod 2 != 0) = true ↔ OddDraw w 0 := by
      unfold OddDraw
      rw [bne_iff_ne, ne_eq, ← BitVec.toNat_inj, BitVec.umod_eq, BitVec.toNat_umod]
      show ¬ ((w.draw 0).toNat % 2 = 0) ↔ _
      omega
    by_cases h : OddDraw w 0
    · rw [if_pos h, if_pos (hiff.2 h)]
      have : rd2 M i 4 = .error .oob := by
        unfold rd2
        by_cases hi : i < 256
        · rw [rd_ok _ _ hi]; rfl
        · unfold rd; rw [dif_neg hi]; rfl
      rw [this]
      rfl
    · rw [if_neg h, if_neg (fun e => h (hiff.1 e))]
      rfl
  constructor
  · rintro ⟨k, hk, ho⟩
    obtain rfl : k = 0 := by omega
    rw [hrun, if_pos ho]
  · intro h
    exact ⟨M, by rw [hrun, if_neg (h 0 (by omega))], rfl⟩

theorem Guarded.bind {α β : Type} {d e : Nat} {x : CM α} {f : α → CM β} {w : World} {P : α → Prop}
    {Q : β → Prop} (h : Guarded d x w P) (hf : ∀ a, P a → Guarded e (f a) (w.adv d) Q) :
    Guarded (d + e) (x >>= f) w Q := by
  classical
  by_cases h1 : ∃ k, k < d ∧ OddDraw w k
  · refine ⟨fun _ => CM_bind_error (h.1 h1), fun hn => ?_⟩
    obtain ⟨k, hk, ho⟩ := h1
    exact absurd ho (hn k (by omega))
  · have h1' : ∀ k, k < d → ¬ OddDraw w k := fun k hk ho => h1 ⟨k, hk, ho⟩
    obtain ⟨a, ha, hP⟩ := h.2 h1'
    refine ⟨?_, ?_⟩
    · rintro ⟨k, hk, ho⟩
      rw [CM_bind_run ha]
      have hkd : d ≤ k := by
        by_contra hlt
        exact h1' k (by omega) ho
      refine (hf a hP).1 ⟨k - d, by omega, ?_⟩
      rw [odd_adv, show d + (k - d) = k by omega]
      exact ho
    · intro hn
      rw [CM_bind_run ha]
      obtain ⟨b, hb, hQ⟩ := (hf a hP).2 (fun k hk => by rw [odd_adv]; exact hn _ (by omega))
      exact ⟨b, by rw [hb, adv_adv], hQ⟩

theorem Guarded.pre {α β : Type} {e : Nat} {x : CM α} {f : α → CM β} {w : World} {P : α → Prop}
    {Q : β → Prop} (h : OkM x w (fun a w' => P a ∧ w' = w)) (hf : ∀ a, P a → Guarded e (f a) w Q) :
    Guarded e (x >>= f) w Q := by
  obtain ⟨⟨a, w'⟩, ha, hP, hw⟩ := h
  simp only at hw hP
  rw [hw] at ha
  refine ⟨fun h => ?_, fun h => ?_⟩
  · rw [CM_bind_run ha]; exact (hf a hP).1 h
  · rw [CM_bind_run ha]; exact (hf a hP).2 h

theorem Guarded.mono {α : Type} {d : Nat} {x : CM α} {w : World} {P Q : α → Prop}
    (h : Guarded d x w P) (hq : ∀ a, P a → Q a) : Guarded d x w Q :=
  ⟨h.1, fun hn => let ⟨a, ha, hP⟩ := h.2 hn; ⟨a, ha, hq a hP⟩⟩

theorem guarded_foldl {σ : Type} {f : Nat → σ → CM σ} (d : Nat → Nat) (I : Nat → σ → Prop) :
    ∀ (len lo : Nat) (s : σ) (w : World), I lo s →
    (∀ i s w, lo ≤ i → i < lo + len → I i s → Guarded (d i) (f i s) w (I (i + 1))) →
    Guarded (∑ i ∈ Finset.Ico lo (lo + len), d i) ((List.range' lo len).foldlM (fun s i => f i s) s) w
      (I (lo + len)) := by
  intro len
  induction len with
  | zero =>
    intro lo s w h0 _
    rw [Nat.add_zero, Finset.Ico_self, Finset.sum_empty]
    refine ⟨fun ⟨k, hk, _⟩ => absurd hk (Nat.not_lt_zero k), fun _ => ⟨s, ?_, h0⟩⟩
    rw [adv_zero]; rfl
  | succ len ih =>
    intro lo s w h0 hs
    rw [List.range'_succ, List.foldlM_cons, Finset.sum_eq_sum_Ico_succ_bot (by omega),
      show lo + (len + 1) = lo + 1 + len by omega]
    refine Guarded.bind (hs lo s w (le_refl _) (by omega) h0) ?_
    intro s' h'
    exact ih (lo + 1) s' _ h' (fun i s w h1 h2 hp => hs i s w (by omega) (by omega) hp)

theorem Guarded.forUp {σ : Type} {lo hi : Nat} {s : σ} {w : World} {f : Nat → σ → CM σ} (d : Nat → Nat)
    (I : Nat → σ → Prop) (hle : lo ≤ hi) (h0 : I lo s)
    (hs : ∀ i s w, lo ≤ i → i < hi → I i s → Guarded (d i) (f i s) w (I (i + 1))) :
    Guarded (∑ i ∈ Finset.Ico lo hi, d i) (WB.forUp lo hi s f) w (I hi) := by
  have := guarded_foldl d I (hi - lo) lo s w h0 (fun i s w h1 h2 hp => hs i s w h1 (by omega) hp)
  rw [show lo + (hi - lo) = hi by omega] at this
  exact this

/-- `Guarded` with the draws counted from an earlier point. -/
def GuardedAt {α : Type} (w0 : World) (a d : Nat) (x : CM α) (w : World) (Q : α → Prop) : Prop :=
  ((∃ k, k < d ∧ OddDraw w0 (a + k)) → x w = .error .oob) ∧
  ((∀ k, k < d → ¬ OddDraw w0 (a + k)) → ∃ r, x w = .ok (r, w0.adv (a + d)) ∧ Q r)

theorem GuardedAt.pre {α β : Type} {w0 : World} {a d : Nat} {x : CM α} {f : α → CM β} {w : World}
    {P : α → World → Prop} {Q : β → Prop} (h : OkM x w P)
    (hf : ∀ r w', P r w' → GuardedAt w0 a d (f r) w' Q) : GuardedAt w0 a d (x >>= f) w Q := by
  obtain ⟨⟨r, w'⟩, hr, hP⟩ := h
  have := hf r w' hP
  unfold GuardedAt at this ⊢
  rw [CM_bind_run hr]
  exact this

theorem Guarded.at {α : Type} {w0 : World} {a d : Nat} {x : CM α} {Q : α → Prop}
    (h : Guarded d x (w0.adv a) Q) : GuardedAt w0 a d x (w0.adv a) Q := by
  unfold Guarded at h
  simp only [odd_adv, adv_adv] at h
  exact h

theorem upM256_strict (M : M256) (w : World) (h : w.randseed ≠ 0x7fffffff#32) :
    GuardedAt w.seeded 30624 2016 (upM256 .strict M) w (fun A => UnitUpper (mat256 A) ∧
        ∀ i j : Fin 256, 192 ≤ i.val → mat256 A i j = if i = j then 1 else 0) := by
  unfold upM256
  refine GuardedAt.pre (OkM_reseedInt (Q := fun _ w' => w' = w.seeded) h rfl) ?_
  rintro _ _ rfl
  refine GuardedAt.pre (rows_loop (bit := bitW) (fun r c => c ≤ r ∨ 192 ≤ r) (fun i => 255 - i) (lo := 0) (hi := 64) (by norm_num)
    (by norm_num) ?_ M w.seeded (fun r _ h => absurd h (Nat.not_lt_zero r))) ?_
  · intro i M w hlo hhi
    refine OkM.bind (one_row (k := 0) (by norm_num) (by omega) (by norm_num) (by omega) (by omega) (RowSt.start M i)
      (D' := fun c => 0 ≤ c ∧ c < 64) (fun c hc => by omega) _) ?_
    rintro N0 _ ⟨g0, rfl⟩
    refine OkM.bind (flips2_row (k := 0) (by norm_num) (fun j => j) (by omega) (by norm_num) (by omega) (by intros; omega) g0
      (D' := fun c => c ≤ i) (fun c hc => ⟨by omega, by intros; omega⟩) _) ?_
    rintro N1 _ ⟨g1, rfl⟩
    refine OkM.bind (flips2_row (k := 1) (by norm_num) (fun j => j - 64) (by omega) (by norm_num) (by omega) (by intros; omega) g1
      (D' := fun c => c ≤ i) (fun c hc => ⟨by omega, by intros; omega⟩) _) ?_
    rintro N2 _ ⟨g2, rfl⟩
    refine OkM.bind (flips2_row (k := 2) (by norm_num) (fun j => j - 128) (by omega) (by norm_num) (by omega) (by intros; omega) g2
      (D' := fun c => c ≤ i) (fun c hc => ⟨by omega, by intros; omega⟩) _) ?_
    rintro N3 _ ⟨g3, rfl⟩
    refine (flips2_row (k := 3) (by norm_num) (fun j => j - 192) (by omega) (by norm_num) (by omega) (by intros; omega) g3
      (D' := fun c => c ≤ i) (fun c hc => ⟨by omega, by intros; omega⟩) _).mono ?_
    rintro A _ ⟨h1, h2⟩
    refine ⟨h1.weaken (fun c hc => by omega), ?_⟩
    rw [h2]
    try simp only [adv_adv]
    congr 1
    all_goals omega
  rintro A0 _ ⟨hA0, rfl⟩
  refine GuardedAt.pre (rows_loop (bit := bitW) (fun r c => c ≤ r ∨ 192 ≤ r) (fun i => 255 - i) (lo := 64) (hi := 128) (by norm_num)
    (by norm_num) ?_ A0 _ hA0) ?_
  · intro i M w hlo hhi
    refine OkM.bind (zero_row (k := 0) (by norm_num) (by omega) (by norm_num) (by omega) (RowSt.start M i) (D' := fun c => c < 64)
      (fun c hc => Or.inl (by omega)) _) ?_
    rintro N0 _ ⟨g0, rfl⟩
    refine OkM.bind (one_row (k := 1) (by norm_num) (by omega) (by norm_num) (by omega) (by omega) g0
      (D' := fun c => 0 ≤ c ∧ c < 128) (fun c hc => by omega) _) ?_
    rintro N1 _ ⟨g1, rfl⟩
    refine OkM.bind (flips2_row (k := 1) (by norm_num) (fun j => j - 64) (by omega) (by norm_num) (by omega) (by intros; omega) g1
      (D' := fun c => c ≤ i) (fun c hc => ⟨by omega, by intros; omega⟩) _) ?_
    rintro N2 _ ⟨g2, rfl⟩
    refine OkM.bind (flips2_row (k := 2) (by norm_num) (fun j => j - 128) (by omega) (by norm_num) (by omega) (by intros; omega) g2
      (D' := fun c => c ≤ i) (fun c hc => ⟨by omega, by intros; omega⟩) _) ?_
    rintro N3 _ ⟨g3, rfl⟩
    refine (flips2_row (k := 3) (by norm_num) (fun j => j - 192) (by omega) (by norm_num) (by omega) (by intros; omega) g3
      (D' := fun c => c ≤ i) (fun c hc => ⟨by omega, by intros; omega⟩) _).mono ?_
    rintro A _ ⟨h1, h2⟩
    refine ⟨h1.weaken (fun c hc => by omega), ?_⟩
    rw [h2]
    try simp only [adv_adv]
    congr 1
    all_goals omega
  rintro A1 _ ⟨hA1, rfl⟩
  refine GuardedAt.pre (rows_loop (bit := bitW) (fun r c => c ≤ r ∨ 192 ≤ r) (fun i => 255 - i) (lo := 128) (hi := 192) (by norm_num)
    (by norm_num) ?_ A1 _ hA1) ?_
  · intro i M w hlo hhi
    refine OkM.bind (zero_row (k := 0) (by norm_num) (by omega) (by norm_num) (by omega) (RowSt.start M i) (D' := fun c => c < 64)
      (fun c hc => Or.inl (by omega)) _) ?_
    rintro N0 _ ⟨g0, rfl⟩
    refine OkM.bind (zero_row (k := 1) (by norm_num) (by omega) (by norm_num) (by omega) g0 (D' := fun c => c < 128)
      (fun c hc => by omega) _) ?_
    rintro N1 _ ⟨g1, rfl⟩
    refine OkM.bind (one_row (k := 2) (by norm_num) (by omega) (by norm_num) (by omega) (by omega) g1
      (D' := fun c => 0 ≤ c ∧ c < 192) (fun c hc => by omega) _) ?_
    rintro N2 _ ⟨g2, rfl⟩
    refine OkM.bind (flips2_row (k := 2) (by norm_num) (fun j => j - 128) (by omega) (by norm_num) (by omega) (by intros; omega) g2
      (D' := fun c => c ≤ i) (fun c hc => ⟨by omega, by intros; omega⟩) _) ?_
    rintro N3 _ ⟨g3, rfl⟩
    refine (flips2_row (k := 3) (by norm_num) (fun j => j - 192) (by omega) (by norm_num) (by omega) (by intros; omega) g3
      (D' := fun c => c ≤ i) (fun c hc => ⟨by omega, by intros; omega⟩) _).mono ?_
    rintro A _ ⟨h1, h2⟩
    refine ⟨h1.weaken (fun c hc => by omega), ?_⟩
    rw [h2]
    try simp only [adv_adv]
    congr 1
    all_goals omega
  rintro A2 _ ⟨hA2, rfl⟩
  simp only [adv_adv]
  rw [show (∑ i ∈ Finset.Ico 0 64, (255 - i)) + (∑ i ∈ Finset.Ico 64 128, (255 - i)) +
    ∑ i ∈ Finset.Ico 128 192, (255 - i) = 30624 from by decide +kernel]
  refine Guarded.at ?_
  have hs : (∑ i ∈ Finset.Ico 192 256, (255 - i)) = 2016 := by decide +kernel
  rw [← hs]
  refine (Guarded.forUp (fun i => 255 - i) (fun i A => ∀ r (hr : r < 256), r < i → ∀ c, c < 256 →
    (c ≤ r ∨ 192 ≤ r) → bitW A[r] c = decide (c = r)) (by norm_num) hA2 ?_).mono ?_
  · intro i M w hlo hhi hM
    refine Guarded.pre (zero_row (k := 0) (by norm_num) (by omega) (by norm_num) (by omega) (RowSt.start M i)
      (D' := fun c => c < 64) (fun c hc => Or.inl (by omega)) _) ?_
    intro N0 g0
    refine Guarded.pre (zero_row (k := 1) (by norm_num) (by omega) (by norm_num) (by omega) g0
      (D' := fun c => c < 128) (fun c hc => by omega) _) ?_
    intro N1 g1
    refine Guarded.pre (zero_row (k := 2) (by norm_num) (by omega) (by norm_num) (by omega) g1
      (D' := fun c => c < 192) (fun c hc => by omega) _) ?_
    intro N2 g2
    refine Guarded.pre (one_row (k := 3) (by norm_num) (by omega) (by norm_num) (by omega) (by omega) g2
      (D' := fun c => 0 ≤ c ∧ c < 256) (fun c hc => by omega) _) ?_
    intro N3 g3
    have := Guarded.forUp (w := w) (fun _ => 1) (fun _ A => A = N3) (show i + 1 ≤ 256 by omega) rfl
      (f := fun j Mat => flip2X .strict Mat i 4 identM64 (j - 192))
      (fun j A w _ _ hA => hA ▸ guarded_flip w)
    rw [Finset.sum_const, Nat.card_Ico, smul_eq_mul, mul_one, show 256 - (i + 1) = 255 - i by omega] at this
    refine this.mono ?_
    rintro A rfl r hr hlt c hc hd
    by_cases e : r = i
    · subst e
      exact g3.row hr c hc ⟨Nat.zero_le _, hc⟩
    · rw [g3.above r hr (by omega)]
      exact hM r hr (by omega) c hc hd
  · intro A hA
    refine ⟨upper_of fun r hr h c hc hle => hA r hr h c hc (Or.inl hle), ?_⟩
    intro i j hi
    simp only [matOf, Fin.getElem_fin]
    rw [hA i i.2 i.2 j j.2 (Or.inr hi)]
    by_cases e : i = j
    · subst e; simp [bitF]
    · rw [if_neg e]
      have : j.val ≠ i.val := fun e' => e (Fin.ext e'.symm)
      simp [bitF, this]

end WB.rlud
