import Mathlib.Algebra.Field.ZMod
import Mathlib.LinearAlgebra.Matrix.ToLinearEquiv
import Verif.Proof.NtlRun

/-!
# The random matrices of the programs that use NTL (helper lemmas)
-/
namespace WB.ntl

variable {r c n i : Nat} {s : Rnd}

/-- One element is replaced. -/
def setEntry (A : Matrix (Fin r) (Fin c) (ZMod 2)) (i j : Nat) (a : ZMod 2) : Matrix (Fin r) (Fin c) (ZMod 2) :=
  fun k l => if k.val = i ∧ l.val = j then a else A k l

theorem put_run {A : Matrix (Fin r) (Fin c) (ZMod 2)} {i j : Nat} (hi : i < r) (hj : j < c) (a : ZMod 2) :
    (⟨r, c, A⟩ : MatGF2).put i j a = .ok ⟨r, c, setEntry A i j a⟩ := by
  unfold MatGF2.put
  rw [if_pos ⟨hi, hj⟩]
  rfl

theorem get_run {A : Matrix (Fin r) (Fin c) (ZMod 2)} {i j : Nat} (hi : i < r) (hj : j < c) :
    (⟨r, c, A⟩ : MatGF2).get i j = .ok (A ⟨i, hi⟩ ⟨j, hj⟩) := by
  unfold MatGF2.get
  rw [dif_pos ⟨hi, hj⟩]

/-- Row `i` is replaced. -/
def setRow (A : Matrix (Fin r) (Fin c) (ZMod 2)) (i : Nat) (w : Fin c → ZMod 2) : Matrix (Fin r) (Fin c) (ZMod 2) :=
  fun k l => if k.val = i then w l else A k l

/-- The number of ones among the first `k` elements. -/
def onesTo (w : Fin c → ZMod 2) (k : Nat) : Nat := (Finset.univ.filter fun j : Fin c => j.val < k ∧ w j = 1).card

theorem onesTo_succ (w : Fin c → ZMod 2) {k : Nat} (hk : k < c) :
    onesTo w (k + 1) = if w ⟨k, hk⟩ = 1 then onesTo w k + 1 else onesTo w k := by
  unfold onesTo
  by_cases h : w ⟨k, hk⟩ = 1
  · rw [if_pos h, ← Finset.card_insert_of_notMem (a := (⟨k, hk⟩ : Fin c)) (by simp)]
    congr 1
    ext j
    simp only [Finset.mem_filter, Finset.mem_univ, true_and, Finset.mem_insert]
    constructor
    · rintro ⟨h1, h2⟩
      by_cases e : j.val = k
      · exact .inl (Fin.ext e)
      · exact .inr ⟨by omega, h2⟩
    · rintro (rfl | ⟨h1, h2⟩)
      · exact ⟨by simp, h⟩
      · exact ⟨by omega, h2⟩
  · rw [if_neg h]
    congr 1
    ext j
    simp only [Finset.mem_filter, Finset.mem_univ, true_and]
    constructor
    · rintro ⟨h1, h2⟩
      refine ⟨?_, h2⟩
      by_contra e
      have : j = ⟨k, hk⟩ := Fin.ext (by simp only; omega)
      rw [this] at h2
      exact h h2
    · rintro ⟨h1, h2⟩
      exact ⟨by omega, h2⟩

theorem onesTo_all (w : Fin c → ZMod 2) : onesTo w c = ones w := by
  unfold onesTo ones
  congr 1
  ext j
  simp

/-- The first `k` elements of row `i` are replaced. -/
def partRow (A : Matrix (Fin r) (Fin c) (ZMod 2)) (i : Nat) (w : Fin c → ZMod 2) (k : Nat) : Matrix (Fin r) (Fin c) (ZMod 2) :=
  fun x y => if x.val = i ∧ y.val < k then w y else A x y

theorem partRow_zero (A : Matrix (Fin r) (Fin c) (ZMod 2)) (i : Nat) (w : Fin c → ZMod 2) : partRow A i w 0 = A := by
  funext x y
  exact if_neg (by omega)

theorem partRow_all (A : Matrix (Fin r) (Fin c) (ZMod 2)) (i : Nat) (w : Fin c → ZMod 2) : partRow A i w c = setRow A i w := by
  funext x y
  have := y.2
  unfold partRow setRow
  by_cases h : x.val = i
  · rw [if_pos h, if_pos ⟨h, this⟩]
  · rw [if_neg h, if_neg (fun h2 => h h2.1)]

theorem partRow_succ (A : Matrix (Fin r) (Fin c) (ZMod 2)) (i : Nat) (w : Fin c → ZMod 2) {k : Nat} (hk : k < c) :
    setEntry (partRow A i w k) i k (w ⟨k, hk⟩) = partRow A i w (k + 1) := by
  funext x y
  unfold setEntry partRow
  by_cases h : x.val = i ∧ y.val = k
  · rw [if_pos h, if_pos (by omega)]
    congr 1
    exact Fin.ext h.2.symm
  · rw [if_neg h]
    by_cases h2 : x.val = i ∧ y.val < k
    · rw [if_pos h2, if_pos (by omega)]
    · rw [if_neg h2, if_neg (by omega)]

theorem fillRow_run (A : Matrix (Fin r) (Fin c) (ZMod 2)) (hi : i < r) (s : Rnd) :
    fillRow ⟨r, c, A⟩ i c s = .ok ((⟨r, c, setRow A i (slice s.bits s.pos c)⟩, ones (slice s.bits s.pos c)),
      { s with pos := s.pos + c }) := by
  have := forUp_eq (hi := c) (f := fun j (x : MatGF2 × Nat) => do
      let L ← liftC (x.1.put i j (← random_GF2))
      if (← liftC (L.get i j)) = 1 then pure (L, x.2 + 1) else pure (L, x.2))
    (fun k => (⟨r, c, partRow A i (slice s.bits s.pos c) k⟩, onesTo (slice s.bits s.pos c) k))
    (fun k => { s with pos := s.pos + k }) ?_
  · have e0 : onesTo (slice s.bits s.pos c) 0 = 0 := by simp [onesTo]
    simp only [onesTo_all, partRow_all, partRow_zero, e0] at this
    exact this
  · intro k hk
    have h1 : random_GF2 { s with pos := s.pos + k } = .ok (slice s.bits s.pos c ⟨k, hk⟩, { s with pos := s.pos + (k + 1) }) := rfl
    rw [NM_bind h1]
    simp only
    rw [NM_bind (liftC_run (put_run hi hk _)), NM_bind (liftC_run (get_run hi hk)), partRow_succ A i _ hk, onesTo_succ _ hk]
    have e : partRow A i (slice s.bits s.pos c) (k + 1) ⟨i, hi⟩ ⟨k, hk⟩ = slice s.bits s.pos c ⟨k, hk⟩ := by
      unfold partRow
      exact if_pos ⟨rfl, Nat.lt_succ_self k⟩
    rw [e]
    by_cases h : slice s.bits s.pos c ⟨k, hk⟩ = 1
    · rw [if_pos h, if_pos h]; rfl
    · rw [if_neg h, if_neg h]; rfl

/-- The first `k` rows are not unit rows. -/
def NoUnitTo (A : Matrix (Fin r) (Fin c) (ZMod 2)) (k : Nat) : Prop := ∀ i : Fin r, i.val < k → ones (A i) ≠ 1

theorem drawRow_run (hi : i < r) : ∀ (fuel : Nat) (A : Matrix (Fin r) (Fin c) (ZMod 2)) (s : Rnd),
    Run (drawRow ⟨r, c, A⟩ i c fuel) s fun L => ∃ w, ones w ≠ 1 ∧ L = ⟨r, c, setRow A i w⟩
  | 0, _, _ => .inr rfl
  | fuel + 1, A, s => by
    unfold Run
    rw [drawRow, NM_bind (fillRow_run A hi s)]
    by_cases h : ones (slice s.bits s.pos c) = 1
    · simp only [if_pos h]
      have := drawRow_run hi fuel (setRow A i (slice s.bits s.pos c)) { s with pos := s.pos + c }
      refine Run.mono this ?_
      rintro L ⟨w, hw, rfl⟩
      refine ⟨w, hw, ?_⟩
      congr 1
      funext k l
      simp only [setRow]
      split <;> rfl
    · simp only [if_neg h]
      exact Run.pure ⟨_, h, rfl⟩

theorem fillMat_run (fuel : Nat) (A : Matrix (Fin r) (Fin c) (ZMod 2)) (s : Rnd) :
    Run (fillMat fuel ⟨r, c, A⟩ r c) s fun L => ∃ B : Matrix (Fin r) (Fin c) (ZMod 2), NoUnitRow B ∧ L = ⟨r, c, B⟩ := by
  unfold fillMat
  refine Run.forUp (fun k L => ∃ B : Matrix (Fin r) (Fin c) (ZMod 2), NoUnitTo B k ∧ L = ⟨r, c, B⟩)
    ⟨A, fun i h => absurd h (by omega), rfl⟩ ?_ ?_
  · rintro k _ s hk ⟨B, hB, rfl⟩
    refine (drawRow_run hk fuel B s).mono ?_
    rintro _ ⟨w, hw, rfl⟩
    refine ⟨_, fun j hj => ?_, rfl⟩
    by_cases e : j.val = k
    · have : setRow B k w j = w := by funext l; simp [setRow, e]
      rw [this]; exact hw
    · have : setRow B k w j = B j := by funext l; simp [setRow, e]
      rw [this]; exact hB j (by omega)
  · rintro _ ⟨B, hB, rfl⟩
    exact ⟨B, fun i => hB i i.2, rfl⟩

theorem determinant_run (A : Matrix (Fin n) (Fin n) (ZMod 2)) : determinant ⟨n, n, A⟩ = .ok A.det := by
  unfold determinant
  rw [dif_pos rfl]
  rfl

theorem two_cases (a : ZMod 2) : a = 0 ∨ a = 1 := by revert a; decide

theorem unit_iff {A : Matrix (Fin n) (Fin n) (ZMod 2)} : IsUnit A ↔ A.det ≠ 0 := by
  rw [Matrix.isUnit_iff_isUnit_det]
  rcases two_cases A.det with h | h
  · rw [h]; simp
  · rw [h]; simp

theorem drawMat_run (fuel0 : Nat) : ∀ (fuel : Nat) (A : Matrix (Fin n) (Fin n) (ZMod 2)) (s : Rnd),
    Run (drawMat fuel0 ⟨n, n, A⟩ n fuel) s fun L => ∃ B : Matrix (Fin n) (Fin n) (ZMod 2),
      NoUnitRow B ∧ IsUnit B ∧ L = ⟨n, n, B⟩
  | 0, _, _ => .inr rfl
  | fuel + 1, A, s => by
    rw [drawMat]
    refine Run.bind (fillMat_run fuel0 A s) ?_
    rintro _ s' ⟨B, hB, rfl⟩
    refine Run.step (determinant_run B) ?_
    by_cases h : B.det = 0
    · rw [if_pos h]
      exact drawMat_run fuel0 fuel B s'
    · rw [if_neg h]
      exact Run.pure ⟨B, hB, unit_iff.2 h, rfl⟩

theorem adjugate_eq {A : Matrix (Fin n) (Fin n) (ZMod 2)} (h : IsUnit A) : A.adjugate = A⁻¹ := by
  have h1 : A.det = 1 := (two_cases _).resolve_left (unit_iff.1 h)
  rw [Matrix.inv_def, h1]
  simp

theorem inv_run {A : Matrix (Fin n) (Fin n) (ZMod 2)} (h : IsUnit A) : inv ⟨n, n, A⟩ = .ok ⟨n, n, A⁻¹⟩ := by
  unfold inv
  rw [determinant_run, C_pure_bind, if_neg (unit_iff.1 h), dif_pos rfl, ← adjugate_eq h]
  rfl

theorem inv_singular {A : Matrix (Fin n) (Fin n) (ZMod 2)} (h : ¬ IsUnit A) : inv ⟨n, n, A⟩ = .error .abort := by
  unfold inv
  rw [determinant_run, C_pure_bind, if_pos (by by_contra h2; exact h (unit_iff.2 h2))]

theorem invTo_run (Y : MatGF2) {A : Matrix (Fin n) (Fin n) (ZMod 2)} (h : IsUnit A) :
    invTo Y ⟨n, n, A⟩ = .ok ⟨n, n, A⁻¹⟩ := by
  unfold invTo
  rw [determinant_run, C_pure_bind, if_neg (unit_iff.1 h), inv_run h]

theorem invTo_singular (Y : MatGF2) {A : Matrix (Fin n) (Fin n) (ZMod 2)} (h : ¬ IsUnit A) :
    invTo Y ⟨n, n, A⟩ = .ok Y := by
  unfold invTo
  rw [determinant_run, C_pure_bind, if_pos (by by_contra h2; exact h (unit_iff.2 h2))]
  rfl

theorem SetDims_eq (stale : Nat → Nat → ZMod 2) (L : MatGF2) (r c : Nat) :
    ∃ A : Matrix (Fin r) (Fin c) (ZMod 2), L.SetDims stale r c = ⟨r, c, A⟩ := ⟨_, rfl⟩

theorem randomInvertible_run (stale : Nat → Nat → ZMod 2) (fuel0 : Nat) : ∀ (fuel : Nat) (L : MatGF2) (s : Rnd),
    Run (randomInvertible stale fuel0 L n fuel) s fun L => ∃ B : Matrix (Fin n) (Fin n) (ZMod 2),
      NoUnitRow B ∧ IsUnit B ∧ L = ⟨n, n, B⟩
  | 0, _, _ => .inr rfl
  | fuel + 1, L, s => by
    rw [randomInvertible]
    unfold random
    refine Run.bind (fillMat_run fuel0 _ s) ?_
    rintro _ s' ⟨B, hB, rfl⟩
    refine Run.step (determinant_run B) ?_
    by_cases h : B.det = 0
    · rw [if_pos h]
      exact randomInvertible_run stale fuel0 fuel _ s'
    · rw [if_neg h]
      exact Run.pure ⟨B, hB, unit_iff.2 h, rfl⟩

/-! ## Every matrix without unit rows can be drawn -/

theorem drawRow_hit (A : Matrix (Fin r) (Fin c) (ZMod 2)) (hi : i < r) {fuel : Nat} (hf : 1 ≤ fuel) (s : Rnd)
    (h : ones (slice s.bits s.pos c) ≠ 1) :
    drawRow ⟨r, c, A⟩ i c fuel s = .ok (⟨r, c, setRow A i (slice s.bits s.pos c)⟩, { s with pos := s.pos + c }) := by
  obtain ⟨f, rfl⟩ : ∃ f, fuel = f + 1 := ⟨fuel - 1, by omega⟩
  rw [drawRow, NM_bind (fillRow_run A hi s)]
  simp only [if_neg h]
  rfl

/-- The matrix that the bits from `p` on are. -/
def bitsMat (bits : Nat → ZMod 2) (p r c : Nat) : Matrix (Fin r) (Fin c) (ZMod 2) := fun i j => bits (p + i * c + j)

/-- The first `k` rows are replaced. -/
def partMat (A B : Matrix (Fin r) (Fin c) (ZMod 2)) (k : Nat) : Matrix (Fin r) (Fin c) (ZMod 2) :=
  fun x y => if x.val < k then B x y else A x y

theorem partMat_zero (A B : Matrix (Fin r) (Fin c) (ZMod 2)) : partMat A B 0 = A := by
  funext x y
  exact if_neg (by omega)

theorem partMat_all (A B : Matrix (Fin r) (Fin c) (ZMod 2)) : partMat A B r = B := by
  funext x y
  exact if_pos x.2

theorem partMat_succ (A B : Matrix (Fin r) (Fin c) (ZMod 2)) {k : Nat} (hk : k < r) {w : Fin c → ZMod 2}
    (hw : ∀ y, w y = B ⟨k, hk⟩ y) : setRow (partMat A B k) k w = partMat A B (k + 1) := by
  funext x y
  unfold setRow partMat
  by_cases h : x.val = k
  · rw [if_pos h, if_pos (by omega), hw]
    congr 1
    exact Fin.ext h.symm
  · rw [if_neg h]
    by_cases h2 : x.val < k
    · rw [if_pos h2, if_pos (by omega)]
    · rw [if_neg h2, if_neg (by omega)]

theorem fillMat_hit (A : Matrix (Fin r) (Fin c) (ZMod 2)) {fuel : Nat} (hf : 1 ≤ fuel) (s : Rnd)
    (h : NoUnitRow (bitsMat s.bits s.pos r c)) :
    fillMat fuel ⟨r, c, A⟩ r c s = .ok (⟨r, c, bitsMat s.bits s.pos r c⟩, { s with pos := s.pos + r * c }) := by
  have := forUp_eq (hi := r) (f := fun i (L : MatGF2) => drawRow L i c fuel)
    (fun k => ⟨r, c, partMat A (bitsMat s.bits s.pos r c) k⟩)
    (fun k => { s with pos := s.pos + k * c }) ?_
  · simp only [partMat_all, partMat_zero, Nat.zero_mul, Nat.add_zero] at this
    exact this
  · intro k hk
    have hk' : ones (slice s.bits (s.pos + k * c) c) ≠ 1 := h ⟨k, hk⟩
    rw [drawRow_hit _ hk hf { s with pos := s.pos + k * c } hk', partMat_succ A (bitsMat s.bits s.pos r c) hk (w := slice s.bits (s.pos + k * c) c)
      (fun _ => rfl)]
    simp only
    rw [Nat.add_assoc, ← Nat.succ_mul]

theorem drawMat_hit (A : Matrix (Fin n) (Fin n) (ZMod 2)) {fuel0 fuel : Nat} (hf0 : 1 ≤ fuel0) (hf : 1 ≤ fuel) (s : Rnd)
    (h : NoUnitRow (bitsMat s.bits s.pos n n)) (hu : IsUnit (bitsMat s.bits s.pos n n)) :
    drawMat fuel0 ⟨n, n, A⟩ n fuel s = .ok (⟨n, n, bitsMat s.bits s.pos n n⟩, { s with pos := s.pos + n * n }) := by
  obtain ⟨f, rfl⟩ : ∃ f, fuel = f + 1 := ⟨fuel - 1, by omega⟩
  rw [drawMat, NM_bind (fillMat_hit A hf0 s h), NM_bind (liftC_run (determinant_run _)), if_neg (unit_iff.1 hu)]
  rfl

theorem randomInvertible_hit (stale : Nat → Nat → ZMod 2) (L : MatGF2) {fuel0 fuel : Nat} (hf0 : 1 ≤ fuel0) (hf : 1 ≤ fuel)
    (s : Rnd) (h : NoUnitRow (bitsMat s.bits s.pos n n)) (hu : IsUnit (bitsMat s.bits s.pos n n)) :
    randomInvertible stale fuel0 L n fuel s = .ok (⟨n, n, bitsMat s.bits s.pos n n⟩, { s with pos := s.pos + n * n }) := by
  obtain ⟨f, rfl⟩ : ∃ f, fuel = f + 1 := ⟨fuel - 1, by omega⟩
  rw [randomInvertible]
  unfold random
  obtain ⟨A, e⟩ := SetDims_eq stale L n n
  rw [e, NM_bind (fillMat_hit _ hf0 s h), NM_bind (liftC_run (determinant_run _)), if_neg (unit_iff.1 hu)]
  rfl

/-- The elements of a matrix in the order in which they are drawn. -/
def matBits (A : Matrix (Fin r) (Fin c) (ZMod 2)) : List (ZMod 2) :=
  List.ofFn fun k : Fin (r * c) => A (Fin.divNat (m := r) (n := c) k) (Fin.modNat (m := r) (n := c) k)

theorem bitsMat_matBits (A : Matrix (Fin r) (Fin c) (ZMod 2)) {bits : Nat → ZMod 2} {p : Nat}
    (h : ∀ k (h : k < (matBits A).length), bits (p + k) = (matBits A)[k]) : bitsMat bits p r c = A := by
  funext i j
  have hlt : i.val * c + j.val < r * c := by
    have := i.2; have := j.2
    calc i.val * c + j.val < i.val * c + c := by omega
      _ = (i.val + 1) * c := by rw [Nat.succ_mul]
      _ ≤ r * c := Nat.mul_le_mul_right _ (by omega)
  have := h (i.val * c + j.val) (by rw [matBits, List.length_ofFn]; exact hlt)
  unfold bitsMat
  rw [Nat.add_assoc, this]
  unfold matBits
  rw [List.getElem_ofFn]
  have h0 : 0 < c := by have := j.2; omega
  have h1 : (i.val * c + j.val) / c = i.val := by
    rw [Nat.mul_comm, Nat.mul_add_div h0, Nat.div_eq_of_lt j.2, Nat.add_zero]
  have h2 : (i.val * c + j.val) % c = j.val := by
    rw [Nat.mul_comm, Nat.mul_add_mod, Nat.mod_eq_of_lt j.2]
  congr 1
  · exact Fin.ext h1
  · exact Fin.ext h2

theorem length_matBits (A : Matrix (Fin r) (Fin c) (ZMod 2)) : (matBits A).length = r * c := by
  rw [matBits, List.length_ofFn]

theorem drawMat_can {fuel0 fuel : Nat} (hf0 : 1 ≤ fuel0) (hf : 1 ≤ fuel) (A B : Matrix (Fin n) (Fin n) (ZMod 2))
    (h : NoUnitRow B) (hu : IsUnit B) : Can (drawMat fuel0 ⟨n, n, A⟩ n fuel) fun L => L = ⟨n, n, B⟩ := by
  intro p
  refine ⟨matBits B, _, rfl, ?_⟩
  rintro ⟨bits, _⟩ rfl hb
  have e := bitsMat_matBits B hb
  have := drawMat_hit A hf0 hf ⟨bits, _⟩ (by rw [e]; exact h) (by rw [e]; exact hu)
  rw [this, e, length_matBits]

theorem fillMat_can {fuel : Nat} (hf : 1 ≤ fuel) (A B : Matrix (Fin r) (Fin c) (ZMod 2)) (h : NoUnitRow B) :
    Can (fillMat fuel ⟨r, c, A⟩ r c) fun L => L = ⟨r, c, B⟩ := by
  intro p
  refine ⟨matBits B, _, rfl, ?_⟩
  rintro ⟨bits, _⟩ rfl hb
  have e := bitsMat_matBits B hb
  have := fillMat_hit A hf ⟨bits, _⟩ (by rw [e]; exact h)
  rw [this, e, length_matBits]

theorem randomInvertible_can (stale : Nat → Nat → ZMod 2) {fuel0 fuel : Nat} (hf0 : 1 ≤ fuel0) (hf : 1 ≤ fuel) (L : MatGF2)
    (B : Matrix (Fin n) (Fin n) (ZMod 2)) (h : NoUnitRow B) (hu : IsUnit B) :
    Can (randomInvertible stale fuel0 L n fuel) fun L => L = ⟨n, n, B⟩ := by
  intro p
  refine ⟨matBits B, _, rfl, ?_⟩
  rintro ⟨bits, _⟩ rfl hb
  have e := bitsMat_matBits B hb
  have := randomInvertible_hit stale L hf0 hf ⟨bits, _⟩ (by rw [e]; exact h) (by rw [e]; exact hu)
  rw [this, e, length_matBits]

theorem randomVec_can (v : Fin n → ZMod 2) : Can (randomVec n) fun x => x = ⟨n, v⟩ := by
  intro p
  refine ⟨List.ofFn v, _, rfl, ?_⟩
  rintro ⟨bits, _⟩ rfl hb
  unfold randomVec
  rw [List.length_ofFn]
  congr 3
  funext i
  have := hb i (by rw [List.length_ofFn]; exact i.2)
  simp only at this ⊢
  rw [this, List.getElem_ofFn]

/-! ## Which sizes have such a matrix -/

theorem ones_ne_one_of_singular_one (A : Matrix (Fin 1) (Fin 1) (ZMod 2)) (h : NoUnitRow A) : ¬ IsUnit A := by
  rw [unit_iff]
  revert h
  unfold NoUnitRow ones
  revert A
  decide

theorem ones_ne_one_of_singular_two (A : Matrix (Fin 2) (Fin 2) (ZMod 2)) (h : NoUnitRow A) : ¬ IsUnit A := by
  rw [unit_iff]
  revert h
  unfold NoUnitRow ones
  revert A
  decide

/-- Ones at `i` and `i + 1`, and three ones in the last row. -/
def chain (n : Nat) : Matrix (Fin n) (Fin n) (ZMod 2) := fun i j =>
  if i.val + 1 = n then (if j.val < 3 then 1 else 0) else if j.val = i.val ∨ j.val = i.val + 1 then 1 else 0

theorem chain_noUnitRow (h : 3 ≤ n) : NoUnitRow (chain n) := by
  intro i
  by_cases e : i.val + 1 = n
  · have h2 : ({⟨0, by omega⟩, ⟨1, by omega⟩} : Finset (Fin n)) ⊆ Finset.univ.filter fun j => chain n i j = 1 := by
      intro j hj
      simp only [Finset.mem_insert, Finset.mem_singleton] at hj
      simp only [Finset.mem_filter, Finset.mem_univ, true_and, chain, if_pos e]
      rcases hj with rfl | rfl <;> simp
    have := Finset.card_le_card h2
    rw [Finset.card_pair (by simp)] at this
    unfold ones
    omega
  · have hi := i.2
    have h2 : ({i, ⟨i.val + 1, by omega⟩} : Finset (Fin n)) ⊆ Finset.univ.filter fun j => chain n i j = 1 := by
      intro j hj
      simp only [Finset.mem_insert, Finset.mem_singleton] at hj
      simp only [Finset.mem_filter, Finset.mem_univ, true_and, chain, if_neg e]
      rcases hj with rfl | rfl <;> simp
    have := Finset.card_le_card h2
    rw [Finset.card_pair (by intro h; have := congrArg Fin.val h; simp at this)] at this
    unfold ones
    omega

theorem chain_unit (h : 3 ≤ n) : IsUnit (chain n) := by
  rw [unit_iff]
  intro hd
  obtain ⟨v, hv, hz⟩ := Matrix.exists_mulVec_eq_zero_iff.2 hd
  apply hv
  have hrow : ∀ i : Fin n, (hi : i.val + 1 < n) → v i + v ⟨i.val + 1, hi⟩ = 0 := by
    intro i hi
    have := congrFun hz i
    rw [Matrix.mulVec, dotProduct, Pi.zero_apply] at this
    rw [← Finset.sum_subset (Finset.subset_univ ({i, ⟨i.val + 1, hi⟩} : Finset (Fin n))), Finset.sum_pair] at this
    · simpa [chain, show ¬ i.val + 1 = n by omega] using this
    · intro h; have := congrArg Fin.val h; simp at this
    · intro j _ hj
      simp only [Finset.mem_insert, Finset.mem_singleton, not_or] at hj
      have h1 : j.val ≠ i.val := fun h => hj.1 (Fin.ext h)
      have h2 : j.val ≠ i.val + 1 := fun h => hj.2 (Fin.ext h)
      simp [chain, show ¬ i.val + 1 = n by omega, h1, h2]
  have heq : ∀ k (hk : k < n), v ⟨k, hk⟩ = v ⟨0, by omega⟩ := by
    intro k
    induction k with
    | zero => intro _; rfl
    | succ k ih =>
      intro hk
      rw [← ih (by omega)]
      have := hrow ⟨k, by omega⟩ hk
      generalize v ⟨k, by omega⟩ = a at *
      generalize v ⟨k + 1, hk⟩ = b at *
      revert a b
      decide
  have hlast := congrFun hz ⟨n - 1, by omega⟩
  rw [Matrix.mulVec, dotProduct, Pi.zero_apply] at hlast
  rw [← Finset.sum_subset (Finset.subset_univ ({⟨0, by omega⟩, ⟨1, by omega⟩, ⟨2, by omega⟩} : Finset (Fin n))),
    Finset.sum_insert (by simp), Finset.sum_pair (by simp)] at hlast
  · simp only [chain, show n - 1 + 1 = n by omega, if_true] at hlast
    simp only [heq 1 (by omega), heq 2 (by omega)] at hlast
    have h0 : v ⟨0, by omega⟩ = 0 := by
      have h3 : ∀ a : ZMod 2, 1 * a + (1 * a + 1 * a) = 0 → a = 0 := by decide
      exact h3 _ (by simpa using hlast)
    funext k
    rw [show k = ⟨k.val, k.2⟩ from rfl, heq k.val k.2, h0]
    rfl
  · intro j _ hj
    simp only [Finset.mem_insert, Finset.mem_singleton, not_or] at hj
    have h0 : j.val ≠ 0 := fun h => hj.1 (Fin.ext h)
    have h1 : j.val ≠ 1 := fun h => hj.2.1 (Fin.ext h)
    have h2 : j.val ≠ 2 := fun h => hj.2.2 (Fin.ext h)
    simp [chain, show n - 1 + 1 = n by omega, show ¬ j.val < 3 by omega]

end WB.ntl
