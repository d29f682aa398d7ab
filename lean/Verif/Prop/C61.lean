import Verif.Proof.ReachPair
import Verif.Prop.C42

/-!
# C61 — which matrices the random functions can return (written by tools/gen_c61.py)

The sets below range over all states of the random generator, all clocks, all previous contents of
the outputs and all stack garbage.
-/
namespace WB
open Matrix

set_option maxRecDepth 20000

/-- C61: for every state and clock, the matrices that `SetRandSeed(s); randM4(&T)` can produce are all
matrices of four nibbles. -/
theorem C61_randM4 (X : M4) (w : World) (T : M4) :
    (∃ s w', (do SetRandSeed s; randM4 X) w = .ok (T, w')) ↔ ∀ i (hi : i < 4), T[i].toNat < 16 := by
  constructor
  · rintro ⟨s, w', h⟩ i hi
    rw [run_SetRandSeed, randM4_gen] at h
    obtain ⟨rfl, -⟩ := Prod.mk.inj (Except.ok.inj h)
    exact gen4_low _ i hi
  · intro h
    obtain ⟨s, rfl⟩ := gen4_surj T h
    have h1 := randM4_gen X { w with randseed := s ^^^ w.clock w.now }
    rw [show seedOf { w with randseed := s ^^^ w.clock w.now } = s from
      (BitVec.xor_assoc _ _ _).trans (by rw [BitVec.xor_self, BitVec.xor_zero])] at h1
    exact ⟨s ^^^ w.clock w.now, _, (run_SetRandSeed _ _ _).trans h1⟩

/-- C61: for every state and clock, the matrices that `SetRandSeed(s); genMatpairM4(&A, &B)` can put into
`A` are all invertible matrices (of nibbles). -/
theorem C61_genMatpairM4 (env : Env) (A0 B0 : M4) (w : World) (T : M4) :
    (∃ s B w', (do SetRandSeed s; genMatpairM4 env A0 B0) w = .ok ((T, B), w')) ↔
      (∀ i (hi : i < 4), T[i].toNat < 16) ∧ IsUnit (mat4 T) := by
  constructor
  · rintro ⟨s, B, w', h⟩
    rw [run_SetRandSeed] at h
    obtain ⟨A, B', w'', h', hAB, hBA, -, -, -, -, hc, -⟩ := C15_genMatpairM4 env A0 B0 { w with randseed := s }
    rw [h] at h'
    obtain ⟨e, -⟩ := Prod.mk.inj (Except.ok.inj h')
    obtain ⟨rfl, rfl⟩ := Prod.mk.inj e
    exact ⟨fun i hi => hc ⟨i, hi⟩, ⟨⟨_, _, hAB, hBA⟩, rfl⟩⟩
  · rintro ⟨h, hu⟩
    obtain ⟨s, v, hw⟩ := (C61_randM4 T { w with now := w.now + 1 } T).2 h
    rw [run_SetRandSeed] at hw
    obtain ⟨A, B, w', T', v', h1, h2, h3, -⟩ := C42_genMatpairM4 env A0 B0 T { w with randseed := s - 1#32 }
      { { w with now := w.now + 1 } with randseed := s }
      (congrArg (· ^^^ w.clock (w.now + 1)) (BitVec.sub_add_cancel s 1#32).symm)
    obtain ⟨hT, -⟩ := Prod.mk.inj (Except.ok.inj (hw.symm.trans h2))
    rw [← hT] at h3
    rw [(h3 hu).1] at h1
    exact ⟨s - 1#32, B, w', (run_SetRandSeed _ _ _).trans h1⟩

example : ∃ s B w', (do SetRandSeed s; genMatpairM4 exEnv exB4 exB4) exWorld = .ok ((exA4, B), w') := by
  refine (C61_genMatpairM4 exEnv exB4 exB4 exWorld exA4).2 ⟨fun i hi => exA4_clean ⟨i, hi⟩, ?_⟩
  obtain ⟨r, hr, _, h1, _⟩ := isinvertM4_ok exA4
  have : isinvertM4 exA4 = .ok 1 := by decide +kernel
  rw [hr] at this
  exact (isUnit_iff_det _).2 (h1 (Except.ok.inj this))

/-! ## 8 -/

/-- C61: `randM8` can return at most `2^32` different matrices. -/
theorem C61_randM8 :
    {T : M8 | ∃ X w w', randM8 X w = .ok (T, w')}.Finite ∧
    {T : M8 | ∃ X w w', randM8 X w = .ok (T, w')}.ncard ≤ 2 ^ 32 := by
  refine few gen8 _ ?_
  rintro T ⟨X, w, w', h⟩
  rw [randM8_gen] at h
  obtain ⟨rfl, -⟩ := Prod.mk.inj (Except.ok.inj h)
  exact ⟨seedOf w, rfl⟩

/-- C61: `genMatpairM8` can return at most `2^32` different matrices. -/
theorem C61_genMatpairM8 :
    {P : Mat 8 | ∃ env A0 B0 w A B w', genMatpairM8 env A0 B0 w = .ok ((A, B), w') ∧ mat8 A = P}.ncard
      ≤ 2 ^ 32 := by
  refine (few (fun s => mat8 (pairOf8 s)) _ ?_).2
  rintro _ ⟨env, A0, B0, w, A, B, w', h, rfl⟩
  exact ⟨_, congrArg mat8 (pairOf8_eq h)⟩

/-- C61: of the at least `2^56` invertible matrices, at most `2^32` are ever returned by `genMatpairM8`;
no seed, clock or state of the generator leads to any of the others. -/
theorem C61_missed_M8 :
    2 ^ 56 ≤ {P : Mat 8 | IsUnit P}.ncard ∧
    2 ^ 56 - 2 ^ 32 ≤ {P : Mat 8 | IsUnit P ∧ ∀ env A0 B0 w A B w', 
      genMatpairM8 env A0 B0 w = .ok ((A, B), w') → mat8 A ≠ P}.ncard := by
  obtain ⟨h1, h2⟩ := missed (k := 56) (by norm_num) _ (C61_genMatpairM8)
  refine ⟨h1, h2.trans_eq (congrArg Set.ncard ?_)⟩
  ext P
  simp only [Set.mem_diff, Set.mem_setOf_eq, not_exists, not_and, ne_eq]

/-! ## 16 -/

/-- C61: `randM16` can return at most `2^32` different matrices. -/
theorem C61_randM16 :
    {T : M16 | ∃ X w w', randM16 X w = .ok (T, w')}.Finite ∧
    {T : M16 | ∃ X w w', randM16 X w = .ok (T, w')}.ncard ≤ 2 ^ 32 := by
  refine few gen16 _ ?_
  rintro T ⟨X, w, w', h⟩
  rw [randM16_gen] at h
  obtain ⟨rfl, -⟩ := Prod.mk.inj (Except.ok.inj h)
  exact ⟨seedOf w, rfl⟩

/-- C61: `genMatpairM16` can return at most `2^32` different matrices. -/
theorem C61_genMatpairM16 :
    {P : Mat 16 | ∃ env A0 B0 w A B w', genMatpairM16 env A0 B0 w = .ok ((A, B), w') ∧ mat16 A = P}.ncard
      ≤ 2 ^ 32 := by
  refine (few (fun s => mat16 (pairOf16 s)) _ ?_).2
  rintro _ ⟨env, A0, B0, w, A, B, w', h, rfl⟩
  exact ⟨_, congrArg mat16 (pairOf16_eq h)⟩

/-- C61: of the at least `2^240` invertible matrices, at most `2^32` are ever returned by `genMatpairM16`;
no seed, clock or state of the generator leads to any of the others. -/
theorem C61_missed_M16 :
    2 ^ 240 ≤ {P : Mat 16 | IsUnit P}.ncard ∧
    2 ^ 240 - 2 ^ 32 ≤ {P : Mat 16 | IsUnit P ∧ ∀ env A0 B0 w A B w', 
      genMatpairM16 env A0 B0 w = .ok ((A, B), w') → mat16 A ≠ P}.ncard := by
  obtain ⟨h1, h2⟩ := missed (k := 240) (by norm_num) _ (C61_genMatpairM16)
  refine ⟨h1, h2.trans_eq (congrArg Set.ncard ?_)⟩
  ext P
  simp only [Set.mem_diff, Set.mem_setOf_eq, not_exists, not_and, ne_eq]

/-! ## 32 -/

/-- C61: the number of different matrices that `randM32` can return is exactly `2^32`. -/
theorem C61_randM32 :
    {T : M32 | ∃ X w w', randM32 X w = .ok (T, w')}.Finite ∧
    {T : M32 | ∃ X w w', randM32 X w = .ok (T, w')}.ncard = 2 ^ 32 := by
  refine exact_card (gen32) (fun s t h => gen32_inj h) _ ?_
  ext T
  simp only [Set.mem_setOf_eq, Set.mem_range]
  constructor
  · rintro ⟨X, w, w', h⟩
    rw [randM32_gen] at h
    obtain ⟨rfl, -⟩ := Prod.mk.inj (Except.ok.inj h)
    exact ⟨seedOf w, rfl⟩
  · rintro ⟨s, rfl⟩
    have h1 := randM32_gen (Vector.replicate _ (0)) ⟨s, 0, 0, fun _ => 0, 0, []⟩
    rw [show seedOf ⟨s, 0, 0, fun _ => 0, 0, []⟩ = s from BitVec.xor_zero] at h1
    exact ⟨_, _, _, h1⟩

/-- C61: `genMatpairM32` can return at most `2^32` different matrices. -/
theorem C61_genMatpairM32 :
    {P : Mat 32 | ∃ env A0 B0 w A B w', genMatpairM32 env A0 B0 w = .ok ((A, B), w') ∧ mat32 A = P}.ncard
      ≤ 2 ^ 32 := by
  refine (few (fun s => mat32 (pairOf32 s)) _ ?_).2
  rintro _ ⟨env, A0, B0, w, A, B, w', h, rfl⟩
  exact ⟨_, congrArg mat32 (pairOf32_eq h)⟩

/-- C61: of the at least `2^992` invertible matrices, at most `2^32` are ever returned by `genMatpairM32`;
no seed, clock or state of the generator leads to any of the others. -/
theorem C61_missed_M32 :
    2 ^ 992 ≤ {P : Mat 32 | IsUnit P}.ncard ∧
    2 ^ 992 - 2 ^ 32 ≤ {P : Mat 32 | IsUnit P ∧ ∀ env A0 B0 w A B w', 
      genMatpairM32 env A0 B0 w = .ok ((A, B), w') → mat32 A ≠ P}.ncard := by
  obtain ⟨h1, h2⟩ := missed (k := 992) (by norm_num) _ (C61_genMatpairM32)
  refine ⟨h1, h2.trans_eq (congrArg Set.ncard ?_)⟩
  ext P
  simp only [Set.mem_diff, Set.mem_setOf_eq, not_exists, not_and, ne_eq]

/-! ## 64 -/

/-- C61: the number of different matrices that `randM64` can return, on a machine with the byte order `e`, is exactly `2^32`. -/
theorem C61_randM64 (e : Endian) :
    {T : M64 | ∃ env X w w', env.endian = e ∧ randM64 env X w = .ok (T, w')}.Finite ∧
    {T : M64 | ∃ env X w w', env.endian = e ∧ randM64 env X w = .ok (T, w')}.ncard = 2 ^ 32 := by
  refine exact_card (gen64 ⟨e, fun _ _ => 0⟩) (fun s t h => gen64_inj rfl h) _ ?_
  ext T
  simp only [Set.mem_setOf_eq, Set.mem_range]
  constructor
  · rintro ⟨env, X, w, w', rfl, h⟩
    rw [randM64_gen] at h
    obtain ⟨rfl, -⟩ := Prod.mk.inj (Except.ok.inj h)
    exact ⟨seedOf w, gen64_congr rfl _⟩
  · rintro ⟨s, rfl⟩
    have h1 := randM64_gen ⟨e, fun _ _ => 0⟩ (Vector.replicate _ (0)) ⟨s, 0, 0, fun _ => 0, 0, []⟩
    rw [show seedOf ⟨s, 0, 0, fun _ => 0, 0, []⟩ = s from BitVec.xor_zero] at h1
    exact ⟨⟨e, fun _ _ => 0⟩, _, _, _, rfl, h1⟩

/-- C61: `genMatpairM64` can return at most `2^32` different matrices on a machine with
the byte order `e`. -/
theorem C61_genMatpairM64 (e : Endian) :
    {P : Mat 64 | ∃ env A0 B0 w A B w', env.endian = e ∧ genMatpairM64 env A0 B0 w = .ok ((A, B), w') ∧ mat64 A = P}.ncard
      ≤ 2 ^ 32 := by
  refine (few (fun s => mat64 (pairOf64 e s)) _ ?_).2
  rintro _ ⟨env, A0, B0, w, A, B, w', rfl, h, rfl⟩
  exact ⟨_, congrArg mat64 (pairOf64_eq h)⟩

/-- C61: of the at least `2^4032` invertible matrices, at most `2^32` are ever returned by `genMatpairM64` on a machine with
the byte order `e`;
no seed, clock or state of the generator leads to any of the others. -/
theorem C61_missed_M64 (e : Endian) :
    2 ^ 4032 ≤ {P : Mat 64 | IsUnit P}.ncard ∧
    2 ^ 4032 - 2 ^ 32 ≤ {P : Mat 64 | IsUnit P ∧ ∀ env A0 B0 w A B w', env.endian = e →
      genMatpairM64 env A0 B0 w = .ok ((A, B), w') → mat64 A ≠ P}.ncard := by
  obtain ⟨h1, h2⟩ := missed (k := 4032) (by norm_num) _ (C61_genMatpairM64 e)
  refine ⟨h1, h2.trans_eq (congrArg Set.ncard ?_)⟩
  ext P
  simp only [Set.mem_diff, Set.mem_setOf_eq, not_exists, not_and, ne_eq]

/-! ## 128 -/

/-- C61: the number of different matrices that `randM128` can return, on a machine with the byte order `e`, is exactly `2^32`. -/
theorem C61_randM128 (e : Endian) :
    {T : M128 | ∃ env X w w', env.endian = e ∧ randM128 env X w = .ok (T, w')}.Finite ∧
    {T : M128 | ∃ env X w w', env.endian = e ∧ randM128 env X w = .ok (T, w')}.ncard = 2 ^ 32 := by
  refine exact_card (gen128 ⟨e, fun _ _ => 0⟩) (fun s t h => gen128_inj rfl h) _ ?_
  ext T
  simp only [Set.mem_setOf_eq, Set.mem_range]
  constructor
  · rintro ⟨env, X, w, w', rfl, h⟩
    rw [randM128_gen] at h
    obtain ⟨rfl, -⟩ := Prod.mk.inj (Except.ok.inj h)
    exact ⟨seedOf w, gen128_congr rfl _⟩
  · rintro ⟨s, rfl⟩
    have h1 := randM128_gen ⟨e, fun _ _ => 0⟩ (Vector.replicate _ (Vector.replicate _ 0)) ⟨s, 0, 0, fun _ => 0, 0, []⟩
    rw [show seedOf ⟨s, 0, 0, fun _ => 0, 0, []⟩ = s from BitVec.xor_zero] at h1
    exact ⟨⟨e, fun _ _ => 0⟩, _, _, _, rfl, h1⟩

/-- C61: `genMatpairM128` can return at most `2^32` different matrices on a machine with
the byte order `e`. -/
theorem C61_genMatpairM128 (e : Endian) :
    {P : Mat 128 | ∃ env A0 B0 w A B w', env.endian = e ∧ genMatpairM128 env A0 B0 w = .ok ((A, B), w') ∧ mat128 A = P}.ncard
      ≤ 2 ^ 32 := by
  refine (few (fun s => mat128 (pairOf128 e s)) _ ?_).2
  rintro _ ⟨env, A0, B0, w, A, B, w', rfl, h, rfl⟩
  exact ⟨_, congrArg mat128 (pairOf128_eq h)⟩

/-- C61: of the at least `2^16256` invertible matrices, at most `2^32` are ever returned by `genMatpairM128` on a machine with
the byte order `e`;
no seed, clock or state of the generator leads to any of the others. -/
theorem C61_missed_M128 (e : Endian) :
    2 ^ 16256 ≤ {P : Mat 128 | IsUnit P}.ncard ∧
    2 ^ 16256 - 2 ^ 32 ≤ {P : Mat 128 | IsUnit P ∧ ∀ env A0 B0 w A B w', env.endian = e →
      genMatpairM128 env A0 B0 w = .ok ((A, B), w') → mat128 A ≠ P}.ncard := by
  obtain ⟨h1, h2⟩ := missed (k := 16256) (by norm_num) _ (C61_genMatpairM128 e)
  refine ⟨h1, h2.trans_eq (congrArg Set.ncard ?_)⟩
  ext P
  simp only [Set.mem_diff, Set.mem_setOf_eq, not_exists, not_and, ne_eq]

/-! ## 256 -/

/-- C61: the number of different matrices that `randM256` can return, on a machine with the byte order `e`, is exactly `2^32`. -/
theorem C61_randM256 (e : Endian) :
    {T : M256 | ∃ env X w w', env.endian = e ∧ randM256 env X w = .ok (T, w')}.Finite ∧
    {T : M256 | ∃ env X w w', env.endian = e ∧ randM256 env X w = .ok (T, w')}.ncard = 2 ^ 32 := by
  refine exact_card (gen256 ⟨e, fun _ _ => 0⟩) (fun s t h => gen256_inj rfl h) _ ?_
  ext T
  simp only [Set.mem_setOf_eq, Set.mem_range]
  constructor
  · rintro ⟨env, X, w, w', rfl, h⟩
    rw [randM256_gen] at h
    obtain ⟨rfl, -⟩ := Prod.mk.inj (Except.ok.inj h)
    exact ⟨seedOf w, gen256_congr rfl _⟩
  · rintro ⟨s, rfl⟩
    have h1 := randM256_gen ⟨e, fun _ _ => 0⟩ (Vector.replicate _ (Vector.replicate _ 0)) ⟨s, 0, 0, fun _ => 0, 0, []⟩
    rw [show seedOf ⟨s, 0, 0, fun _ => 0, 0, []⟩ = s from BitVec.xor_zero] at h1
    exact ⟨⟨e, fun _ _ => 0⟩, _, _, _, rfl, h1⟩

/-- C61: `genMatpairM256` can return at most `2^32` different matrices on a machine with
the byte order `e`. -/
theorem C61_genMatpairM256 (e : Endian) :
    {P : Mat 256 | ∃ env A0 B0 w A B w', env.endian = e ∧ genMatpairM256 env A0 B0 w = .ok ((A, B), w') ∧ mat256 A = P}.ncard
      ≤ 2 ^ 32 := by
  refine (few (fun s => mat256 (pairOf256 e s)) _ ?_).2
  rintro _ ⟨env, A0, B0, w, A, B, w', rfl, h, rfl⟩
  exact ⟨_, congrArg mat256 (pairOf256_eq h)⟩

/-- C61: of the at least `2^65280` invertible matrices, at most `2^32` are ever returned by `genMatpairM256` on a machine with
the byte order `e`;
no seed, clock or state of the generator leads to any of the others. -/
theorem C61_missed_M256 (e : Endian) :
    2 ^ 65280 ≤ {P : Mat 256 | IsUnit P}.ncard ∧
    2 ^ 65280 - 2 ^ 32 ≤ {P : Mat 256 | IsUnit P ∧ ∀ env A0 B0 w A B w', env.endian = e →
      genMatpairM256 env A0 B0 w = .ok ((A, B), w') → mat256 A ≠ P}.ncard := by
  obtain ⟨h1, h2⟩ := missed (k := 65280) (by norm_num) _ (C61_genMatpairM256 e)
  refine ⟨h1, h2.trans_eq (congrArg Set.ncard ?_)⟩
  ext P
  simp only [Set.mem_diff, Set.mem_setOf_eq, not_exists, not_and, ne_eq]

/-- There is an invertible 8x8 matrix that `genMatpairM8` never returns. -/
example : ∃ P : Mat 8, IsUnit P ∧ ∀ env A0 B0 w A B w',
    genMatpairM8 env A0 B0 w = .ok ((A, B), w') → mat8 A ≠ P := by
  have h := C61_missed_M8.2
  by_contra hne
  have : {P : Mat 8 | IsUnit P ∧ ∀ env A0 B0 w A B w',
      genMatpairM8 env A0 B0 w = .ok ((A, B), w') → mat8 A ≠ P} = ∅ :=
    Set.eq_empty_iff_forall_notMem.2 fun P hP => hne ⟨P, hP⟩
  rw [this, Set.ncard_empty] at h
  norm_num at h

end WB
