import Verif.Proof.Reach4Tab
import Verif.Proof.SeedInj
import Verif.Proof.RelAll
import Mathlib.LinearAlgebra.Matrix.GeneralLinearGroup.Card
import Mathlib.Data.Set.Card

/-!
# The matrices that can be drawn
-/
namespace WB
open Matrix

/-! ## Every 4x4 matrix has a seed -/

theorem checkRow_ok (n k v : Nat) (h : checkRow n k v = true) :
    ∀ j < n, ∃ s < 1048576, keyN s = k + j := by
  induction n generalizing k v with
  | zero => intro j hj; omega
  | succ n ih =>
    have e : checkRow (n + 1) k v = @Bool.rec (fun _ => Bool) false
      (forceN (Nat.div v 1048576) fun v' => forceN (Nat.succ k) fun k' => checkRow n k' v')
      (Nat.beq (forceN (Nat.mod v 1048576) keyN) k) := rfl
    rw [e, forceN_eq, forceN_eq, forceN_eq] at h
    cases hb : Nat.beq (keyN (Nat.mod v 1048576)) k with
    | false => rw [hb] at h; cases h
    | true =>
      rw [hb] at h
      intro j hj
      cases j with
      | zero => exact ⟨_, Nat.mod_lt v (by norm_num), Nat.eq_of_beq_eq_true hb⟩
      | succ j =>
        obtain ⟨s, hs, hk⟩ := ih (Nat.succ k) _ h j (by omega)
        exact ⟨s, hs, by rw [hk]; omega⟩

theorem checkTab_ok (t : List Nat) (k : Nat) (h : checkTab k t = true) :
    ∀ j < 256 * t.length, ∃ s < 1048576, keyN s = k + j := by
  induction t generalizing k with
  | nil => intro j hj; simp at hj
  | cons v t ih =>
    have e : checkTab k (v :: t) = @Bool.rec (fun _ => Bool) false
      (forceN (Nat.add k 256) fun k' => checkTab k' t) (checkRow 256 k v) := rfl
    rw [e, forceN_eq] at h
    cases hb : checkRow 256 k v with
    | false => rw [hb] at h; cases h
    | true =>
      rw [hb] at h
      intro j hj
      rw [List.length_cons] at hj
      by_cases hlt : j < 256
      · exact checkRow_ok 256 k v hb j hlt
      · obtain ⟨s, hs, hk⟩ := ih (Nat.add k 256) h (j - 256) (by omega)
        exact ⟨s, hs, by rw [hk]; show k + 256 + (j - 256) = k + j; omega⟩

theorem keyN_surj (k : Nat) (hk : k < 65536) : ∃ s < 1048576, keyN s = k := by
  have part : ∀ (t : List Nat) (b : Nat), checkTab b t = true → t.length = 32 → b ≤ k → k < b + 8192 →
      ∃ s < 1048576, keyN s = k := by
    intro t b hc hl h1 h2
    obtain ⟨s, hs, h⟩ := checkTab_ok t b hc (k - b) (by rw [hl]; omega)
    exact ⟨s, hs, by rw [h]; omega⟩
  by_cases h0 : k < 8192
  · exact part seedTab0 0 seedTab0_check (by decide +kernel) (by omega) (by omega)
  by_cases h1 : k < 16384
  · exact part seedTab1 8192 seedTab1_check (by decide +kernel) (by omega) (by omega)
  by_cases h2 : k < 24576
  · exact part seedTab2 16384 seedTab2_check (by decide +kernel) (by omega) (by omega)
  by_cases h3 : k < 32768
  · exact part seedTab3 24576 seedTab3_check (by decide +kernel) (by omega) (by omega)
  by_cases h4 : k < 40960
  · exact part seedTab4 32768 seedTab4_check (by decide +kernel) (by omega) (by omega)
  by_cases h5 : k < 49152
  · exact part seedTab5 40960 seedTab5_check (by decide +kernel) (by omega) (by omega)
  by_cases h6 : k < 57344
  · exact part seedTab6 49152 seedTab6_check (by decide +kernel) (by omega) (by omega)
  exact part seedTab7 57344 seedTab7_check (by decide +kernel) (by omega) (by omega)

theorem seedIdx_toNat (s : BitVec 32) :
    (seedIdx s).toNat = permN (Nat.mod (Nat.add (permN s.toNat) 0x682f0161) 4294967296) := by
  unfold seedIdx
  rw [permuteQPR_permN, BitVec.toNat_add, permuteQPR_permN]
  rfl

theorem seedOff_toNat (s : BitVec 32) : (seedOff s).toNat =
    permN (Nat.mod (Nat.add (permN (Nat.mod (Nat.succ s.toNat) 4294967296)) 0x46790905) 4294967296) := by
  unfold seedOff
  rw [permuteQPR_permN, BitVec.toNat_add, permuteQPR_permN, BitVec.toNat_add]
  rfl

theorem and15 (x : BitVec 32) : ((x &&& 0x0f).setWidth 8).toNat = x.toNat % 16 := by
  rw [BitVec.toNat_setWidth, BitVec.toNat_and]
  have : x.toNat &&& BitVec.toNat (15 : BitVec 32) = x.toNat % 16 := Nat.and_two_pow_sub_one_eq_mod x.toNat 4
  rw [this]
  omega

theorem keyN_gen (s : BitVec 32) : keyN s.toNat =
    (((gen4 s)[0].toNat * 16 + (gen4 s)[1].toNat) * 16 + (gen4 s)[2].toNat) * 16 + (gen4 s)[3].toNat := by
  have h : ∀ k (hk : k < 4), (gen4 s)[k].toNat = drawN (seedIdx s).toNat (seedOff s).toNat k % 16 := by
    intro k hk
    simp only [gen4, Vector.getElem_ofFn]
    rw [and15, drawS_toNat rfl rfl]
  rw [h, h, h, h, seedIdx_toNat, seedOff_toNat]
  unfold keyN
  rw [forceN_eq, forceN_eq]
  rfl

theorem gen4_low (s : BitVec 32) (i : Nat) (hi : i < 4) : (gen4 s)[i].toNat < 16 := by
  simp only [gen4, Vector.getElem_ofFn]
  rw [and15]
  exact Nat.mod_lt _ (by norm_num)

theorem gen4_surj (T : M4) (h : ∀ i (hi : i < 4), T[i].toNat < 16) : ∃ s, gen4 s = T := by
  have t0 := h 0 (by norm_num)
  have t1 := h 1 (by norm_num)
  have t2 := h 2 (by norm_num)
  have t3 := h 3 (by norm_num)
  obtain ⟨s, hs, hk⟩ := keyN_surj
    (((T[0].toNat * 16 + T[1].toNat) * 16 + T[2].toNat) * 16 + T[3].toNat) (by omega)
  refine ⟨BitVec.ofNat 32 s, ?_⟩
  have e := keyN_gen (BitVec.ofNat 32 s)
  rw [BitVec.toNat_ofNat, Nat.mod_eq_of_lt (by omega), hk] at e
  have g0 := gen4_low (BitVec.ofNat 32 s) 0 (by norm_num)
  have g1 := gen4_low (BitVec.ofNat 32 s) 1 (by norm_num)
  have g2 := gen4_low (BitVec.ofNat 32 s) 2 (by norm_num)
  have g3 := gen4_low (BitVec.ofNat 32 s) 3 (by norm_num)
  apply Vector.ext
  intro i hi
  apply BitVec.eq_of_toNat_eq
  have : i = 0 ∨ i = 1 ∨ i = 2 ∨ i = 3 := by omega
  rcases this with rfl | rfl | rfl | rfl <;> omega

/-! ## Different seeds, different matrices -/

theorem gen32_inj {s t : BitVec 32} (h : gen32 s = gen32 t) : s = t := by
  refine drawS_inj fun k hk => ?_
  have := congrArg (fun A : M32 => A[k]) h
  simpa only [gen32, Vector.getElem_ofFn] using this

theorem gen64_inj {env env' : Env} (he : env.endian = env'.endian) {s t : BitVec 32}
    (h : gen64 env s = gen64 env' t) : s = t := by
  refine wordS_seed_inj he fun k hk => ?_
  have := congrArg (fun A : M64 => A[k]) h
  simpa only [gen64, Vector.getElem_ofFn] using this

theorem gen128_inj {env env' : Env} (he : env.endian = env'.endian) {s t : BitVec 32}
    (h : gen128 env s = gen128 env' t) : s = t := by
  refine wordS_seed_inj he fun k hk => ?_
  have h1 := congrArg (fun A : M128 => A[k / 2]) h
  simp only [gen128, Vector.getElem_ofFn] at h1
  rcases Nat.mod_two_eq_zero_or_one k with hm | hm
  · have h2 := congrArg (fun A : Vector (BitVec 64) 2 => A[0]) h1
    simpa [show 2 * (k / 2) = k by omega] using h2
  · have h2 := congrArg (fun A : Vector (BitVec 64) 2 => A[1]) h1
    simpa [show 2 * (k / 2) + 1 = k by omega] using h2

theorem gen256_inj {env env' : Env} (he : env.endian = env'.endian) {s t : BitVec 32}
    (h : gen256 env s = gen256 env' t) : s = t := by
  refine wordS_seed_inj he fun k hk => ?_
  have h1 := congrArg (fun A : M256 => A[k / 4]) h
  simp only [gen256, Vector.getElem_ofFn] at h1
  have hm : k % 4 = 0 ∨ k % 4 = 1 ∨ k % 4 = 2 ∨ k % 4 = 3 := by omega
  rcases hm with hm | hm | hm | hm
  · have h2 := congrArg (fun A : Vector (BitVec 64) 4 => A[0]) h1
    simpa [show 4 * (k / 4) = k by omega] using h2
  · have h2 := congrArg (fun A : Vector (BitVec 64) 4 => A[1]) h1
    simpa [show 4 * (k / 4) + 1 = k by omega] using h2
  · have h2 := congrArg (fun A : Vector (BitVec 64) 4 => A[2]) h1
    simpa [show 4 * (k / 4) + 2 = k by omega] using h2
  · have h2 := congrArg (fun A : Vector (BitVec 64) 4 => A[3]) h1
    simpa [show 4 * (k / 4) + 3 = k by omega] using h2

/-! ## Counting -/

theorem card_bv : Nat.card (BitVec 32) = 2 ^ 32 := by
  have e : Nat.card (BitVec 32) = Nat.card (Fin (2 ^ 32)) :=
    Nat.card_congr ⟨BitVec.toFin, BitVec.ofFin, fun _ => rfl, fun _ => rfl⟩
  rw [e, Nat.card_fin]

instance bv_finite : Finite (BitVec 32) :=
  Finite.of_equiv (Fin (2 ^ 32)) ⟨BitVec.ofFin, BitVec.toFin, fun _ => rfl, fun _ => rfl⟩

theorem few {α : Type} (f : BitVec 32 → α) (S : Set α) (h : S ⊆ Set.range f) :
    S.Finite ∧ S.ncard ≤ 2 ^ 32 := by
  have hf : (Set.range f).Finite := Set.finite_range f
  refine ⟨hf.subset h, (Set.ncard_le_ncard h hf).trans ?_⟩
  rw [← card_bv, ← Nat.card_coe_set_eq]
  exact Finite.card_range_le f

theorem exact_card {α : Type} (f : BitVec 32 → α) (hf : ∀ s t, f s = f t → s = t) (S : Set α)
    (h : S = Set.range f) : S.Finite ∧ S.ncard = 2 ^ 32 := by
  subst h
  refine ⟨Set.finite_range f, ?_⟩
  rw [← card_bv, ← Nat.card_coe_set_eq]
  exact Nat.card_congr (Equiv.ofInjective f fun s t => hf s t).symm

/-- There are at least `2^(n(n-1))` invertible matrices. -/
theorem units_card (n : Nat) : 2 ^ (n * (n - 1)) ≤ {P : Mat n | IsUnit P}.ncard := by
  have h1 : {P : Mat n | IsUnit P}.ncard = Nat.card (GL (Fin n) (ZMod 2)) := by
    rw [← Nat.card_coe_set_eq]
    exact Nat.card_congr ⟨fun P => P.2.unit, fun u => ⟨u.1, u.isUnit⟩, fun P => rfl,
      fun u => Units.ext rfl⟩
  rw [h1, Matrix.card_GL_field, ZMod.card]
  have h2 : ∀ i : Fin n, 2 ^ (n - 1) ≤ 2 ^ n - 2 ^ (i : Nat) := by
    intro i
    have hi := i.2
    have e : 2 ^ n = 2 ^ (n - 1) + 2 ^ (n - 1) := by
      rw [← Nat.two_mul, ← Nat.pow_succ']
      congr 1; omega
    have : 2 ^ (i : Nat) ≤ 2 ^ (n - 1) := Nat.pow_le_pow_right (by norm_num) (by omega)
    omega
  calc 2 ^ (n * (n - 1)) = ∏ _i : Fin n, 2 ^ (n - 1) := by
        rw [Finset.prod_const, Finset.card_univ, Fintype.card_fin, ← pow_mul, Nat.mul_comm]
    _ ≤ _ := Finset.prod_le_prod' fun i _ => h2 i

/-- A small set of matrices misses almost all invertible ones. -/
theorem missed {n k : Nat} (hk : n * (n - 1) = k) (S : Set (Mat n)) (h : S.ncard ≤ 2 ^ 32) :
    2 ^ k ≤ {P : Mat n | IsUnit P}.ncard ∧
    2 ^ k - 2 ^ 32 ≤ ({P : Mat n | IsUnit P} \ S).ncard := by
  subst hk
  have hfin : Finite (Mat n) := inferInstanceAs (Finite (Matrix (Fin n) (Fin n) (ZMod 2)))
  have h1 := units_card n
  have h2 := Set.le_ncard_diff S {P : Mat n | IsUnit P} (Set.toFinite _)
  exact ⟨h1, by omega⟩

end WB
