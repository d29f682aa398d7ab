import Verif.Model.Old
import Verif.Proof.MulAll
import Verif.Proof.Inj
import Verif.Proof.Bits

/-!
# The older library (helper lemmas)
-/
namespace WB
open Matrix

/-- Two nested loops that copy the columns `lo ≤ i < hi` of a transpose; iteration `(i, j)` handles all rows `r` with
`r mod q = j`. -/
theorem transLoop {α : Type} {n q lo hi : Nat} (view : α → Mat n) (F : α → Prop) (A : Mat n)
    (body : Nat → Nat → α → C α) (hq : 0 < q) (hle : lo ≤ hi) (hhi : hi ≤ n)
    (hb : ∀ i j, i < n → lo ≤ i → i < hi → j < q → ∀ T, F T → Ok (body i j T) (fun T' => F T' ∧
      ∀ r c, view T' r c = view T r c + if r.val % q = j ∧ c.val = i then A c r else 0))
    {s : α} (hF : F s) (hs : ∀ r c, view s r c = if c.val < lo then A c r else 0) :
    Ok (forUp lo hi s fun i T => forUp 0 q T (body i))
      (fun T => F T ∧ ∀ r c, view T r c = if c.val < hi then A c r else 0) := by
  refine Ok.forUp (fun i T => F T ∧ ∀ r c, view T r c = if c.val < i then A c r else 0) hle ⟨hF, hs⟩ ?_ (fun _ h => h)
  rintro i T h1 h2 ⟨hT, hv⟩
  refine Ok.forUp (fun j T => F T ∧ ∀ r c, view T r c = if c.val < i ∨ (c.val = i ∧ r.val % q < j) then A c r else 0)
    (Nat.zero_le _) ⟨hT, fun r c => ?_⟩ ?_ ?_
  · rw [hv r c]
    by_cases h : c.val < i
    · rw [if_pos h, if_pos (Or.inl h)]
    · rw [if_neg h, if_neg (by omega)]
  · rintro j T' - hj ⟨hT', hv'⟩
    refine (hb i j (by omega) h1 h2 hj T' hT').mono ?_
    rintro T'' ⟨hT'', hv''⟩
    refine ⟨hT'', fun r c => ?_⟩
    rw [hv'' r c, hv' r c]
    by_cases h : c.val < i
    · rw [if_pos (Or.inl h), if_neg (by omega), if_pos (Or.inl h), add_zero]
    · by_cases e : r.val % q = j ∧ c.val = i
      · rw [if_neg (by omega), if_pos e, if_pos (by omega), zero_add]
      · rw [if_neg e, add_zero]
        by_cases e2 : c.val = i ∧ r.val % q < j
        · rw [if_pos (Or.inr e2), if_pos (by omega)]
        · rw [if_neg (by omega), if_neg (by omega)]
  · rintro T' ⟨hT', hv'⟩
    refine ⟨hT', fun r c => ?_⟩
    rw [hv' r c]
    have := Nat.mod_lt r.val hq
    by_cases h : c.val < i + 1
    · rw [if_pos h, if_pos (by omega)]
    · rw [if_neg h, if_neg (by omega)]

/-- The condition `A[i] & id[j]`. -/
theorem testS {n w : Nat} {id : Vector (BitVec w) n} (hid : IdOK n id) (x : BitVec w) {j : Nat} (hj : j < n) :
    ((x &&& id[j]) != 0) = bitS n x j := by
  have hw := hid.1
  rw [hid.2 j hj, BitVec.and_twoPow]
  unfold bitS
  cases x.getLsbD (n - 1 - j)
  · simp
  · simp only [if_true, bne_iff_ne, ne_eq]
    intro h
    have := congrArg (fun y => BitVec.getLsbD y (n - 1 - j)) h
    simp [BitVec.getLsbD_twoPow] at this
    omega

theorem transS {n w : Nat} {id : Vector (BitVec w) n} (hid : IdOK n id) (hn : 0 < n) (A : Vector (BitVec w) n) :
    Ok (forUp 0 n (Vector.replicate n (0 : BitVec w)) fun i T => forUp 0 n T fun j T => do
        if ((← rd A i) &&& (← rd id j)) != 0 then wr T j ((← rd T j) ^^^ (← rd id i)) else pure T)
      (fun T => matOf n (bitS n) T = (matOf n (bitS n) A)ᵀ ∧ ∀ i (h : i < n) k, n ≤ k → T[i].getLsbD k = false) := by
  refine (transLoop (matOf n (bitS n)) (fun T => ∀ i (h : i < n) k, n ≤ k → T[i].getLsbD k = false)
    (matOf n (bitS n) A) _ hn (Nat.zero_le _) (Nat.le_refl _) ?_ ?_ ?_).mono ?_
  · rintro i j hi - - hj T hF
    rw [rd_ok _ _ hi, C_pure_bind, rd_ok _ _ hj, C_pure_bind, rd_ok _ _ hj, C_pure_bind, rd_ok _ _ hi, C_pure_bind,
      testS hid _ hj, Ok.ite_iff, wr_ok _ _ _ hj, Ok.ok_iff, Ok.pure_iff]
    constructor
    · intro h1
      refine ⟨fun r hr => ?_, fun r c => ?_⟩
      · rw [Vector.getElem_set]
        split
        · exact highS hid hi (hF j hj)
        · exact hF r hr
      · rw [Nat.mod_eq_of_lt r.2]
        simp only [matOf, Fin.getElem_fin, Vector.getElem_set]
        by_cases e : r.val = j
        · rw [if_pos e.symm, flipS hid _ hi c]
          by_cases e2 : c.val = i
          · simp only [e, e2, and_self, if_true, h1, bitF_true]
          · simp only [e, e2, and_false, if_false]
        · rw [if_neg (fun h => e h.symm), if_neg (fun h => e h.1), add_zero]
    · intro h1
      refine ⟨hF, fun r c => ?_⟩
      rw [Nat.mod_eq_of_lt r.2]
      by_cases e : r.val = j ∧ c.val = i
      · rw [if_pos e]
        simp only [matOf, Fin.getElem_fin, e.1, e.2, h1, Bool.false_eq_true]
        simp [h1]
      · rw [if_neg e, add_zero]
  · intro i h k _
    simp
  · intro r c
    simp [matOf, bitS]
  · rintro T ⟨hF, hv⟩
    refine ⟨?_, hF⟩
    ext r c
    rw [hv r c, if_pos c.2, transpose_apply]

/-- One conditional flip of a bit in a row of two words. -/
theorem flipIf_ok (A T : M128) (i k j r0 p q : Nat) (hi : i < 128) (hk : k < 2) (hj : j < 64) (hr : r0 < 128) (hp : p < 2)
    (hq : q < 64) : Ok (old.flipIf A i k j T r0 p q)
      (fun T' => ∀ r c, mat128 T' r c =
        mat128 T r c + if r.val = r0 ∧ c.val = 64 * p + q then mat128 A ⟨i, hi⟩ ⟨64 * k + j, by omega⟩ else 0) := by
  unfold old.flipIf
  have bits : ((A[i][k] &&& idM64[j]) != 0) = bitW A[i] (64 * k + j) := by
    rw [testS idOK64 _ hj, bitW_eq _ _ (by omega)]
    have e : (64 * k + j) / 64 = k := by omega
    simp only [e, bitS]
    congr 1
    omega
  rw [rd2_ok _ _ _ hi hk, C_pure_bind, rd_ok _ _ hj, C_pure_bind, bits]
  have hA : mat128 A ⟨i, hi⟩ ⟨64 * k + j, by omega⟩ = bitF (bitW A[i] (64 * k + j)) := rfl
  rw [hA]
  cases bitW A[i] (64 * k + j)
  · rw [if_neg (by simp), Ok.pure_iff]
    intro r c
    simp
  · rw [if_pos rfl]
    have := flipW_eq (l := 2) (n := 128) (by norm_num) idOK64 T ⟨r0, hr⟩ ⟨64 * p + q, by omega⟩ p q (by simp) (by omega)
      (by omega)
    rw [rdI2_nat _ _ _ hr hp, rdI_nat _ _ hq] at this
    simp only [C_pure_bind] at this
    rw [wrI2_nat _ _ _ _ hr hp, Ok.ok_iff] at this
    rw [rd2_ok _ _ _ hr hp, C_pure_bind, rd_ok _ _ hq, C_pure_bind, wr2_ok _ _ _ _ hr hp, Ok.ok_iff]
    intro r c
    refine (this r c).trans ?_
    simp only [Fin.ext_iff, bitF_true]
    split <;> simp

theorem trans128 (A : M128) (T0 : M128) : Ok (old.MattransM128 A T0) (fun T => mat128 T = (mat128 A)ᵀ) := by
  unfold old.MattransM128
  rw [initM128_eq, C_pure_bind]
  have step : ∀ (k i j : Nat) (hi : i < 128) (hk : 64 * k ≤ i) (hk2 : i < 64 * k + 64) (hj : j < 64) (T : M128),
      Ok (do
        let T ← old.flipIf A i 0 j T j k (i - 64 * k)
        old.flipIf A i 1 j T (j + 64) k (i - 64 * k))
        (fun T' => True ∧ ∀ r c, mat128 T' r c =
          mat128 T r c + if r.val % 64 = j ∧ c.val = i then mat128 A c r else 0) := by
    intro k i j hi hk hk2 hj T
    have hk' : k < 2 := by omega
    refine Ok.bind (flipIf_ok A T i 0 j j k (i - 64 * k) hi (by omega) hj (by omega) hk' (by omega)) ?_
    intro T1 h1
    refine (flipIf_ok A T1 i 1 j (j + 64) k (i - 64 * k) hi (by omega) hj (by omega) hk' (by omega)).mono ?_
    intro T2 h2
    refine ⟨trivial, fun r c => ?_⟩
    rw [h2 r c, h1 r c, add_assoc]
    congr 1
    have e : 64 * k + (i - 64 * k) = i := by omega
    rw [e]
    by_cases hc : c.val = i
    · subst hc
      simp only [and_true]
      by_cases hr : r.val = j
      · rw [if_pos hr, if_neg (by omega), if_pos (by omega), add_zero]
        congr 1
        exact Fin.ext (by simp [hr])
      · rw [if_neg hr, zero_add]
        by_cases hr2 : r.val = j + 64
        · rw [if_pos hr2, if_pos (by omega)]
          congr 1
          exact Fin.ext (by simp [hr2]; omega)
        · rw [if_neg hr2, if_neg (by have := r.2; omega)]
    · simp [hc]
  refine Ok.bind (transLoop mat128 (fun _ => True) (mat128 A) _ (by omega) (by omega) (by omega) ?_ trivial ?_) ?_
  · rintro i j hi - h2 hj T -
    exact step 0 i j hi (by omega) (by omega) hj T
  · intro r c
    simp only [matOf, Nat.not_lt_zero, if_false, bitF_eq_zero, bitW]
    by_cases h : c.val / 64 < 2 <;> simp [h]
  · rintro T ⟨-, hT⟩
    refine (transLoop mat128 (fun _ => True) (mat128 A) _ (by omega) (by omega) (by omega) ?_ trivial hT).mono ?_
    · rintro i j hi h1 - hj T -
      exact step 1 i j hi (by omega) (by omega) hj T
    · rintro T ⟨-, hT⟩
      ext r c
      rw [hT r c, if_pos c.2, transpose_apply]

/-- A comparison loop with a flag and `break`, and one with `return`. -/
theorem flagLoop (lo hi : Nat) (g : Nat → C Bool) :
    (forBrk lo hi (1 : Int) fun i flag => do if ← g i then pure (.stop 0) else pure (.next flag)) = (do
      let r ← forRet (ρ := Int) lo hi () fun i _ => do if ← g i then pure (.stop 0) else pure (.next ())
      match r with
      | .stop r => pure r
      | .next _ => pure 1) := by
  unfold forBrk forRet
  generalize List.range' lo (hi - lo) = l
  induction l with
  | nil => rfl
  | cons i l ih =>
    simp only [iterStop]
    cases hg : g i with
    | error e => rfl
    | ok b =>
      cases b
      · simpa using ih
      · rfl

/-- The order of a pure initialisation and the seeding is irrelevant. -/
theorem swap_init {α β : Type} {a b : C α} {x y : α} (ha : a = .ok x) (hb : b = .ok y) (r : CM Unit) (k : α → α → CM β) :
    (do let u ← liftC a; let v ← liftC b; r; k u v) = (do r; let u ← liftC a; let v ← liftC b; k u v) := by
  subst ha hb
  rfl

end WB
