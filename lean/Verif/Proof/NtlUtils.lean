import Verif.Proof.AffFun
import Verif.Proof.MatGf2
import Verif.Proof.NtlDraw

/-!
# The helper functions of the NTL based demos (helper lemmas)
-/
namespace WB.ntl

variable {r c n m i W : Nat}

/-! ## Vectors -/

/-- One element is replaced. -/
def setAt (v : Fin n → ZMod 2) (i : Nat) (a : ZMod 2) : Fin n → ZMod 2 := fun k => if k.val = i then a else v k

theorem vput_run {v : Fin n → ZMod 2} (h : i < n) (a : ZMod 2) : (⟨n, v⟩ : VecGF2).put i a = .ok ⟨n, setAt v i a⟩ := by
  unfold VecGF2.put
  rw [if_pos h]
  rfl

theorem vget_run {v : Fin n → ZMod 2} (h : i < n) : (⟨n, v⟩ : VecGF2).get i = .ok (v ⟨i, h⟩) := by
  unfold VecGF2.get
  rw [dif_pos h]

theorem SetLength_eq (x : VecGF2) (n : Nat) : ∃ v : Fin n → ZMod 2, x.SetLength n = ⟨n, v⟩ := ⟨_, rfl⟩

/-- The first `m` elements are replaced. -/
def vecTo (v w : Fin n → ZMod 2) (m : Nat) : Fin n → ZMod 2 := fun j => if j.val < m then w j else v j

theorem vecTo_zero (v w : Fin n → ZMod 2) : vecTo v w 0 = v := funext fun _ => if_neg (by omega)
theorem vecTo_all (v w : Fin n → ZMod 2) : vecTo v w n = w := funext fun j => if_pos j.2

theorem vecTo_succ (v w : Fin n → ZMod 2) {k : Nat} (hk : k < n) : setAt (vecTo v w k) k (w ⟨k, hk⟩) = vecTo v w (k + 1) := by
  funext x
  unfold setAt vecTo
  by_cases h : x.val = k
  · rw [if_pos h, if_pos (by omega)]
    congr 1
    exact Fin.ext h.symm
  · rw [if_neg h]
    by_cases h2 : x.val < k
    · rw [if_pos h2, if_pos (by omega)]
    · rw [if_neg h2, if_neg (by omega)]

/-- A loop that writes the elements from left to right. -/
theorem vecUp {f : Nat → VecGF2 → C VecGF2} (v w : Fin n → ZMod 2)
    (h : ∀ k (hk : k < n) (u : Fin n → ZMod 2), f k ⟨n, u⟩ = .ok ⟨n, setAt u k (w ⟨k, hk⟩)⟩) :
    forUp 0 n ⟨n, v⟩ f = .ok ⟨n, w⟩ := by
  have := forUpC_eq (hi := n) (f := f) (fun k => ⟨n, vecTo v w k⟩) fun k hk => by rw [h k hk, vecTo_succ]
  simp only [vecTo_zero, vecTo_all] at this
  exact this

/-- The elements from `k` to `m - 1` are replaced. -/
def vecBelow (v w : Fin n → ZMod 2) (m k : Nat) : Fin n → ZMod 2 := fun j => if k ≤ j.val ∧ j.val < m then w j else v j

theorem vecBelow_succ (v w : Fin n → ZMod 2) {m k : Nat} (hm : m ≤ n) (hk : k < m) :
    setAt (vecBelow v w m (k + 1)) k (w ⟨k, by omega⟩) = vecBelow v w m k := by
  funext x
  unfold setAt vecBelow
  by_cases h : x.val = k
  · rw [if_pos h, if_pos (by omega)]
    congr 1
    exact Fin.ext h.symm
  · rw [if_neg h]
    by_cases h2 : k ≤ x.val ∧ x.val < m
    · rw [if_pos h2, if_pos (by omega)]
    · rw [if_neg h2, if_neg (by omega)]

/-- A loop that writes the elements below `m` from right to left. -/
theorem vecDown {τ : Type} {f : Nat → VecGF2 × τ → C (VecGF2 × τ)} (v w : Fin n → ZMod 2) (t : Nat → τ) (hm : m ≤ n)
    (h : ∀ k (hk : k < m) (u : Fin n → ZMod 2), f k (⟨n, u⟩, t (k + 1)) = .ok (⟨n, setAt u k (w ⟨k, by omega⟩)⟩, t k)) :
    forDown m 0 (⟨n, v⟩, t m) f = .ok (⟨n, vecTo v w m⟩, t 0) := by
  have := forDownC_eq (hi := m) (f := f) (fun k => (⟨n, vecBelow v w m k⟩, t k)) fun k hk => by
    rw [h k hk, vecBelow_succ v w hm hk]
  have e0 : vecBelow v w m m = v := funext fun _ => if_neg (by omega)
  have e1 : vecBelow v w m 0 = vecTo v w m := by
    funext j
    unfold vecBelow vecTo
    simp
  simp only [e0, e1] at this
  exact this

theorem gf2_eq {w : Nat} (x : BitVec w) : gf2 x = bitF (x.getLsbD 0) := rfl

theorem gf2_sshift (x : BitVec W) {n k : Nat} (hk : k < n) :
    gf2 (x.sshiftRight (n - 1 - k)) = bitF ((x.signExtend n).getLsbD (n - 1 - k)) := by
  rw [gf2_eq, BitVec.getLsbD_sshiftRight, BitVec.getLsbD_signExtend, Nat.add_zero,
    decide_eq_true (show n - 1 - k < n by omega), Bool.true_and]
  by_cases h : W ≤ 0
  · obtain rfl : W = 0 := by omega
    rw [Subsingleton.elim x 0#0]
    simp
  · simp [h]

theorem initVecFromBit_run (M : VecGF2) (data : BitVec W) (n : Nat) :
    initVecFromBit M data n = .ok (numVec n (data.signExtend n)) := by
  obtain ⟨v, e⟩ := SetLength_eq M n
  unfold initVecFromBit
  rw [e]
  have := vecDown (m := n) (f := fun i (x : VecGF2 × BitVec W) => do
      let M ← x.1.put i (gf2 x.2)
      pure (M, x.2.sshiftRight 1)) v (vecOf n (bitS n) (data.signExtend n)) (fun k => data.sshiftRight (n - k)) (Nat.le_refl _) ?_
  · rw [vecTo_all] at this
    simp only [Nat.sub_self, BitVec.sshiftRight_zero] at this
    simp only [this, C_pure_bind]
    rfl
  · intro k hk u
    simp only
    rw [vput_run hk, C_pure_bind, show n - (k + 1) = n - 1 - k by omega, gf2_sshift data hk, ← BitVec.sshiftRight_add,
      show n - 1 - k + 1 = n - k by omega]
    rfl

theorem numVec_signExtend {w w' : Nat} (x : BitVec w) (h : n ≤ w) (h' : n ≤ w') : numVec n (x.signExtend w') = numVec n x := by
  unfold numVec
  congr 1
  funext i
  have := i.2
  show bitF ((x.signExtend w').getLsbD (n - 1 - i)) = bitF (x.getLsbD (n - 1 - i))
  rw [BitVec.getLsbD_signExtend]
  simp only [show n - 1 - i.val < w' by omega, show n - 1 - i.val < w by omega, decide_true, Bool.true_and, if_pos]

theorem numVec_setWidth {w w' : Nat} (x : BitVec w) (h' : n ≤ w') : numVec n (x.setWidth w') = numVec n x := by
  unfold numVec
  congr 1
  funext i
  have := i.2
  show bitF ((x.setWidth w').getLsbD (n - 1 - i)) = bitF (x.getLsbD (n - 1 - i))
  rw [BitVec.getLsbD_setWidth]
  simp only [show n - 1 - i.val < w' by omega, decide_true, Bool.true_and]

theorem initVec_num (M : VecGF2) (data : BitVec W) (h : n ≤ W) : initVecFromBit M data n = .ok (numVec n data) := by
  rw [initVecFromBit_run, numVec_signExtend _ h (Nat.le_refl _)]

theorem numVec_inj {w : Nat} {x y : BitVec w} (h : numVec w x = numVec w y) : x = y :=
  vecS_inj (by unfold numVec at h; injection h)

theorem exists_numVec (v : Fin n → ZMod 2) : ∃ x : BitVec n, numVec n x = ⟨n, v⟩ :=
  ⟨unvec v, by unfold numVec; rw [vec_unvec]⟩

theorem vec_inj {v w : Fin n → ZMod 2} (h : (⟨n, v⟩ : VecGF2) = ⟨n, w⟩) : v = w := by
  injection h

theorem mat_inj {A B : Matrix (Fin r) (Fin c) (ZMod 2)} (h : (⟨r, c, A⟩ : MatGF2) = ⟨r, c, B⟩) : A = B := by
  injection h

theorem bit_eq_one (b : Bool) : (bitF b = 1) ↔ b = true := by cases b <;> decide

theorem digits_run (w : Nat) (v : Fin n → ZMod 2) (hm : m ≤ n) :
    Ok (digits w ⟨n, v⟩ m) fun y => ∀ k, k < w → y.getLsbD k = (if h : k < m then decide (v ⟨m - 1 - k, by omega⟩ = 1) else false) := by
  unfold digits
  refine Ok.forUp (fun i (d : BitVec w) => ∀ k, k < w → d.getLsbD k =
    (if h : k < i ∧ i ≤ n then decide (v ⟨i - 1 - k, by omega⟩ = 1) else false)) (Nat.zero_le _) ?_ ?_ ?_
  · intro k _; simp
  · intro i d _ hi hd
    rw [vget_run (show i < n by omega), C_pure_bind]
    rw [Ok.pure_iff]
    intro k hk
    have := m4ri.shl_add_bit d (decide (v ⟨i, by omega⟩ = 1)) k hk
    simp only [decide_eq_true_eq] at this
    refine this.trans ?_
    by_cases h0 : k = 0
    · subst h0
      rw [if_pos rfl, dif_pos (by omega)]
      simp
    · rw [if_neg h0, hd _ (by omega)]
      by_cases h1 : k < i + 1
      · rw [dif_pos (by omega), dif_pos (by omega)]
        congr 4
        omega
      · rw [dif_neg (by omega), dif_neg (by omega)]
  · intro d hd k hk
    rw [hd k hk]
    by_cases h : k < m
    · rw [dif_pos ⟨h, hm⟩, dif_pos h]
    · rw [dif_neg (fun h2 => h h2.1), dif_neg h]

/-- The number whose bits are the vector. -/
theorem digits_num (w : Nat) (v : Fin n → ZMod 2) (hw : n ≤ w) :
    Ok (digits w ⟨n, v⟩ n) fun y => numVec n y = ⟨n, v⟩ ∧ y.toNat < 2 ^ n := by
  refine (digits_run w v (Nat.le_refl n)).mono ?_
  intro y hy
  constructor
  · unfold numVec
    congr 1
    funext i
    have hi := i.2
    show bitF (y.getLsbD (n - 1 - i)) = v i
    rw [hy _ (by omega), dif_pos (by omega)]
    have e : (⟨n - 1 - (n - 1 - i.val), by omega⟩ : Fin n) = i := Fin.ext (by simp only; omega)
    rw [e]
    rcases two_cases (v i) with h | h <;> rw [h] <;> decide
  · apply Nat.lt_pow_two_of_testBit
    intro k hk
    show y.getLsbD k = false
    by_cases h : k < w
    · rw [hy k h, dif_neg (by omega)]
    · exact BitVec.getLsbD_of_ge y k (by omega)

theorem eq_of_numVec {w : Nat} {y : BitVec w} {z : BitVec n} (h : numVec n y = numVec n z) (hn : n ≤ w) (hy : y.toNat < 2 ^ n) :
    y = z.setWidth w := by
  have h1 : y.setWidth n = z := numVec_inj (by rw [numVec_setWidth _ (Nat.le_refl _)]; exact h)
  rw [← h1]
  apply BitVec.eq_of_toNat_eq
  rw [BitVec.toNat_setWidth, BitVec.toNat_setWidth, Nat.mod_eq_of_lt hy, Nat.mod_eq_of_lt y.isLt]

theorem digits_numVec (w : Nat) (x : BitVec n) (hw : n ≤ w) : digits w (numVec n x) n = .ok (x.setWidth w) := by
  obtain ⟨y, e, h, hlt⟩ := digits_num w (vecOf n (bitS n) x) hw
  refine e.trans ?_
  rw [eq_of_numVec h hw hlt]

theorem getDigital_num (x : BitVec n) (h : n ≤ 32) : getDigitalFromVec (numVec n x) = .ok (x.setWidth 32) := digits_numVec 32 x h

theorem get32_num (x : BitVec 32) : get32FromVec (numVec 32 x) = .ok x := by
  have := digits_numVec 32 x (Nat.le_refl _)
  rwa [BitVec.setWidth_eq] at this

theorem get8_num (x : BitVec 8) : get8FromVec (numVec 8 x) = .ok x := by
  have := digits_numVec 8 x (Nat.le_refl _)
  rwa [BitVec.setWidth_eq] at this

theorem mulVec_run (A : Matrix (Fin r) (Fin c) (ZMod 2)) (v : Fin c → ZMod 2) :
    mulVec ⟨r, c, A⟩ ⟨c, v⟩ = .ok ⟨r, A.mulVec v⟩ := by
  unfold mulVec
  rw [dif_pos rfl]
  rfl

theorem mulMat_run (A : Matrix (Fin r) (Fin n) (ZMod 2)) (B : Matrix (Fin n) (Fin c) (ZMod 2)) :
    mulMat ⟨r, n, A⟩ ⟨n, c, B⟩ = .ok ⟨r, c, A * B⟩ := by
  unfold mulMat
  rw [dif_pos rfl]
  rfl

theorem addVec_run (v w : Fin n → ZMod 2) : addVec ⟨n, v⟩ ⟨n, w⟩ = .ok ⟨n, v + w⟩ := by
  unfold addVec
  rw [dif_pos rfl]
  rfl

theorem mulVec_num (A : Vector (BitVec n) n) (x : BitVec n) :
    mulVec ⟨n, n, matOf n (bitS n) A⟩ (numVec n x) = .ok (numVec n (lin A x)) := by
  unfold numVec
  rw [mulVec_run, vec_lin]

theorem addVec_num (x y : BitVec n) : addVec (numVec n x) (numVec n y) = .ok (numVec n (x ^^^ y)) := by
  unfold numVec
  rw [addVec_run, vec_add]

/-! ## Matrices -/

/-- The elements `off` to `off + m - 1` of row `i` are replaced. -/
def rect (A : Matrix (Fin r) (Fin c) (ZMod 2)) (i off m : Nat) (g : Nat → ZMod 2) : Matrix (Fin r) (Fin c) (ZMod 2) :=
  fun x y => if x.val = i ∧ off ≤ y.val ∧ y.val < off + m then g (y.val - off) else A x y

theorem rect_zero (A : Matrix (Fin r) (Fin c) (ZMod 2)) (i off : Nat) (g : Nat → ZMod 2) : rect A i off 0 g = A := by
  funext x y
  exact if_neg (by omega)

theorem rect_succ (A : Matrix (Fin r) (Fin c) (ZMod 2)) (i off k : Nat) (g : Nat → ZMod 2) :
    setEntry (rect A i off k g) i (off + k) (g k) = rect A i off (k + 1) g := by
  funext x y
  unfold setEntry rect
  by_cases h : x.val = i ∧ y.val = off + k
  · rw [if_pos h, if_pos (by omega), h.2, Nat.add_sub_cancel_left]
  · rw [if_neg h]
    by_cases h2 : x.val = i ∧ off ≤ y.val ∧ y.val < off + k
    · rw [if_pos h2, if_pos (by omega)]
    · rw [if_neg h2, if_neg (by omega)]

/-- A loop that writes to row `i`. -/
theorem rowUp {f : Nat → MatGF2 → C MatGF2} (A : Matrix (Fin r) (Fin c) (ZMod 2)) (i off m : Nat) (g : Nat → ZMod 2)
    (h : ∀ k, k < m → ∀ B : Matrix (Fin r) (Fin c) (ZMod 2), f k ⟨r, c, B⟩ = .ok ⟨r, c, setEntry B i (off + k) (g k)⟩) :
    forUp 0 m ⟨r, c, A⟩ f = .ok ⟨r, c, rect A i off m g⟩ := by
  have := forUpC_eq (hi := m) (f := f) (fun k => ⟨r, c, rect A i off k g⟩) fun k hk => by rw [h k hk, rect_succ]
  simp only [rect_zero] at this
  exact this

theorem rect_setRow (A : Matrix (Fin r) (Fin c) (ZMod 2)) (i : Nat) (g : Nat → ZMod 2) :
    rect A i 0 c g = setRow A i fun y => g y := by
  funext x y
  have := y.2
  unfold rect setRow
  by_cases h : x.val = i
  · rw [if_pos h, if_pos (by omega), Nat.sub_zero]
  · rw [if_neg h, if_neg (by omega)]

/-- A loop that writes the rows. -/
theorem rowsUp {f : Nat → MatGF2 → C MatGF2} (A B : Matrix (Fin r) (Fin c) (ZMod 2))
    (h : ∀ k (hk : k < r) (D : Matrix (Fin r) (Fin c) (ZMod 2)), f k ⟨r, c, D⟩ = .ok ⟨r, c, setRow D k (B ⟨k, hk⟩)⟩) :
    forUp 0 r ⟨r, c, A⟩ f = .ok ⟨r, c, B⟩ := by
  have := forUpC_eq (hi := r) (f := f) (fun k => ⟨r, c, partMat A B k⟩) fun k hk => by
    rw [h k hk, partMat_succ A B hk fun _ => rfl]
  simp only [partMat_zero, partMat_all] at this
  exact this

/-- The elements from `k` on of row `i` are replaced. -/
def rowFrom (A : Matrix (Fin r) (Fin c) (ZMod 2)) (i : Nat) (w : Fin c → ZMod 2) (k : Nat) : Matrix (Fin r) (Fin c) (ZMod 2) :=
  fun x y => if x.val = i ∧ k ≤ y.val then w y else A x y

theorem rowFrom_succ (A : Matrix (Fin r) (Fin c) (ZMod 2)) (i : Nat) (w : Fin c → ZMod 2) {k : Nat} (hk : k < c) :
    setEntry (rowFrom A i w (k + 1)) i k (w ⟨k, hk⟩) = rowFrom A i w k := by
  funext x y
  unfold setEntry rowFrom
  by_cases h : x.val = i ∧ y.val = k
  · rw [if_pos h, if_pos (by omega)]
    congr 1
    exact Fin.ext h.2.symm
  · rw [if_neg h]
    by_cases h2 : x.val = i ∧ k ≤ y.val
    · rw [if_pos h2, if_pos (by omega)]
    · rw [if_neg h2, if_neg (by omega)]

/-- A loop that writes a row from right to left. -/
theorem rowDown {τ : Type} {f : Nat → MatGF2 × τ → C (MatGF2 × τ)} (A : Matrix (Fin r) (Fin c) (ZMod 2)) (i : Nat)
    (w : Fin c → ZMod 2) (t : Nat → τ) (h : ∀ k (hk : k < c) (B : Matrix (Fin r) (Fin c) (ZMod 2)),
      f k (⟨r, c, B⟩, t (k + 1)) = .ok (⟨r, c, setEntry B i k (w ⟨k, hk⟩)⟩, t k)) :
    forDown c 0 (⟨r, c, A⟩, t c) f = .ok (⟨r, c, setRow A i w⟩, t 0) := by
  have := forDownC_eq (hi := c) (f := f) (fun k => (⟨r, c, rowFrom A i w k⟩, t k)) fun k hk => by
    rw [h k hk, rowFrom_succ]
  have e0 : rowFrom A i w c = A := funext fun x => funext fun y => if_neg (by have := y.2; omega)
  have e1 : rowFrom A i w 0 = setRow A i w := by
    funext x y
    unfold setRow rowFrom
    by_cases h : x.val = i
    · rw [if_pos h, if_pos (by omega)]
    · rw [if_neg h, if_neg (by omega)]
  simp only [e0, e1] at this
  exact this

theorem initMatrix_run (A : Matrix (Fin r) (Fin c) (ZMod 2)) (data : List (BitVec W)) (h : r ≤ data.length) :
    initMatrixFromBit ⟨r, c, A⟩ data =
      .ok ⟨r, c, fun i => vecOf c (bitS c) ((data[i.val]'(by omega)).signExtend c)⟩ := by
  unfold initMatrixFromBit
  refine rowsUp A _ fun i hi D => ?_
  rw [List.getElem?_eq_getElem (by omega)]
  simp only [Option.elim_some, C_pure_bind]
  have := rowDown (f := fun j (x : MatGF2 × BitVec W) => do
      let M' ← x.1.put i j (gf2 x.2)
      pure (M', x.2.sshiftRight 1)) D i (vecOf c (bitS c) (data[i].signExtend c)) (fun k => data[i].sshiftRight (c - k)) ?_
  · simp only [Nat.sub_self, BitVec.sshiftRight_zero] at this
    simp only [this, C_pure_bind]
    rfl
  · intro k hk u
    simp only
    rw [put_run hi hk, C_pure_bind, show c - (k + 1) = c - 1 - k by omega, gf2_sshift _ hk, ← BitVec.sshiftRight_add,
      show c - 1 - k + 1 = c - k by omega]
    rfl

theorem genInd_run (stale : Nat → Nat → ZMod 2) (M : MatGF2) (n : Nat) : genIndMatrix stale M n = .ok ⟨n, n, 1⟩ := by
  unfold genIndMatrix
  obtain ⟨A, e⟩ := SetDims_eq stale M n n
  rw [e]
  refine rowsUp A 1 fun i hi D => ?_
  refine (rowUp D i 0 n (fun k => if i = k then 1 else 0) fun k hk B => ?_).trans ?_
  · rw [put_run hi hk, Nat.zero_add]
  · rw [rect_setRow]
    congr 3
    funext y
    rw [Matrix.one_apply]
    by_cases h : i = y.val
    · rw [if_pos h, if_pos (Fin.ext h)]
    · rw [if_neg h, if_neg (fun h2 => h (Fin.mk.inj_iff.1 h2))]

theorem genZero_run (x : VecGF2) (n : Nat) : genZeroVec x n = .ok ⟨n, 0⟩ := by
  unfold genZeroVec
  obtain ⟨v, e⟩ := SetLength_eq x n
  rw [e]
  exact vecUp v 0 fun k hk u => vput_run hk 0

theorem getVecFrom32_run (d : VecGF2) (x : BitVec 32) : getVecFrom32 d x = .ok (numVec 32 x) := by
  obtain ⟨v, e⟩ := SetLength_eq d 32
  unfold getVecFrom32
  rw [e]
  have := vecDown (m := 32) (f := fun i (p : VecGF2 × BitVec 32) => do
      let M ← p.1.put i (gf2 p.2)
      pure (M, p.2 >>> 1)) v (vecOf 32 (bitS 32) x) (fun k => x >>> (32 - k)) (Nat.le_refl _) ?_
  · rw [vecTo_all] at this
    simp only [Nat.sub_self, BitVec.ushiftRight_zero] at this
    simp only [this, C_pure_bind]
    rfl
  · intro k hk u
    simp only
    rw [vput_run hk, C_pure_bind, ← BitVec.shiftRight_add, show 32 - (k + 1) + 1 = 32 - k by omega, gf2_eq,
      BitVec.getLsbD_ushiftRight, show 32 - (k + 1) + 0 = 32 - 1 - k by omega]
    rfl

theorem getAug_run (d : VecGF2) (x : BitVec 32) :
    getAugmentedVecFrom32 d x = .ok ⟨33, Fin.snoc (α := fun _ => ZMod 2) (vecOf 32 (bitS 32) x) 1⟩ := by
  obtain ⟨v, e⟩ := SetLength_eq d 33
  unfold getAugmentedVecFrom32
  rw [e]
  have := vecDown (n := 33) (m := 32) (f := fun i (p : VecGF2 × BitVec 32) => do
      let M ← p.1.put i (gf2 p.2)
      pure (M, p.2 >>> 1)) v (Fin.snoc (α := fun _ => ZMod 2) (vecOf 32 (bitS 32) x) 1) (fun k => x >>> (32 - k)) (by omega) ?_
  · simp only [Nat.sub_self, BitVec.ushiftRight_zero] at this
    simp only [this, C_pure_bind]
    rw [vput_run (by omega)]
    congr 2
    funext k
    unfold setAt vecTo
    by_cases h : k.val = 32
    · rw [if_pos h, show k = Fin.last 32 from Fin.ext h, Fin.snoc_last]
    · rw [if_neg h, if_pos (by omega)]
  · intro k hk u
    simp only
    rw [vput_run (by omega), C_pure_bind, ← BitVec.shiftRight_add, show 32 - (k + 1) + 1 = 32 - k by omega, gf2_eq,
      BitVec.getLsbD_ushiftRight, show 32 - (k + 1) + 0 = 32 - 1 - k by omega]
    have : (Fin.snoc (α := fun _ => ZMod 2) (vecOf 32 (bitS 32) x) 1 : Fin 33 → ZMod 2) ⟨k, by omega⟩ =
      vecOf 32 (bitS 32) x ⟨k, hk⟩ := Fin.snoc_castSucc (α := fun _ => ZMod 2) (i := ⟨k, hk⟩) ..
    rw [this]
    rfl

theorem diag_top (A : Matrix (Fin n) (Fin n) (ZMod 2)) (B : Matrix (Fin m) (Fin m) (ZMod 2)) {i j : Nat} (hi : i < n)
    (hj : j < n + m) : m4ri.diagMat A B ⟨i, by omega⟩ ⟨j, hj⟩ = if h : j < n then A ⟨i, hi⟩ ⟨j, h⟩ else 0 := by
  have e1 : (⟨i, by omega⟩ : Fin (n + m)) = Fin.castAdd m ⟨i, hi⟩ := rfl
  unfold m4ri.diagMat
  rw [e1, Fin.addCases_left]
  by_cases h : j < n
  · have e2 : (⟨j, hj⟩ : Fin (n + m)) = Fin.castAdd m ⟨j, h⟩ := rfl
    rw [dif_pos h, e2, Fin.addCases_left]
  · have e2 : (⟨j, hj⟩ : Fin (n + m)) = Fin.natAdd n ⟨j - n, by omega⟩ := Fin.ext (by simp; omega)
    rw [dif_neg h, e2, Fin.addCases_right]

theorem diag_bot (A : Matrix (Fin n) (Fin n) (ZMod 2)) (B : Matrix (Fin m) (Fin m) (ZMod 2)) {i j : Nat} (hi : i < m)
    (hj : j < n + m) : m4ri.diagMat A B ⟨n + i, by omega⟩ ⟨j, hj⟩ = if h : j < n then 0 else B ⟨i, hi⟩ ⟨j - n, by omega⟩ := by
  have e1 : (⟨n + i, by omega⟩ : Fin (n + m)) = Fin.natAdd n ⟨i, hi⟩ := rfl
  unfold m4ri.diagMat
  rw [e1, Fin.addCases_right]
  by_cases h : j < n
  · have e2 : (⟨j, hj⟩ : Fin (n + m)) = Fin.castAdd m ⟨j, h⟩ := rfl
    rw [dif_pos h, e2, Fin.addCases_left]
  · have e2 : (⟨j, hj⟩ : Fin (n + m)) = Fin.natAdd n ⟨j - n, by omega⟩ := Fin.ext (by simp; omega)
    rw [dif_neg h, e2, Fin.addCases_right]

/-- Two parts of a row are written. -/
theorem two_rects (A : Matrix (Fin r) (Fin (n + m)) (ZMod 2)) (i : Nat) (g h : Nat → ZMod 2) :
    rect (rect A i 0 n g) i n m h = setRow A i fun y => if y.val < n then g y else h (y - n) := by
  funext x y
  have := y.2
  unfold rect setRow
  by_cases e : x.val = i
  · rw [if_pos e]
    simp only
    by_cases e2 : y.val < n
    · rw [if_neg (by omega), if_pos (by omega), if_pos e2, Nat.sub_zero]
    · rw [if_pos (by omega), if_neg e2]
  · rw [if_neg (by omega), if_neg (by omega), if_neg e]

theorem combineDiag_run (stale : Nat → Nat → ZMod 2) (d : MatGF2) (A : Matrix (Fin n) (Fin n) (ZMod 2))
    (B : Matrix (Fin m) (Fin m) (ZMod 2)) :
    combineDiagMat stale d ⟨n, n, A⟩ ⟨m, m, B⟩ = .ok ⟨n + m, n + m, m4ri.diagMat A B⟩ := by
  unfold combineDiagMat
  obtain ⟨D, e⟩ := SetDims_eq stale d (n + m) (n + m)
  simp only
  rw [e]
  have h1 := forUpC_eq (hi := n) (f := fun i (d : MatGF2) => do
      let d ← forUp 0 n d fun j d => do d.put i j (← (⟨n, n, A⟩ : MatGF2).get i j)
      forUp 0 m d fun j d => d.put i (n + j) 0) (fun k => ⟨n + m, n + m, partMat D (m4ri.diagMat A B) k⟩) ?_
  · simp only [partMat_zero] at h1
    simp only [h1, C_pure_bind]
    have h2 := forUpC_eq (hi := m) (f := fun i (d : MatGF2) => do
      let d ← forUp 0 n d fun j d => d.put (n + i) j 0
      forUp 0 m d fun j d => do d.put (n + i) (n + j) (← (⟨m, m, B⟩ : MatGF2).get i j))
      (fun k => ⟨n + m, n + m, partMat D (m4ri.diagMat A B) (n + k)⟩) ?_
    · simp only [partMat_all, Nat.add_zero] at h2
      exact h2
    · intro k hk
      have r1 := rowUp (f := fun j (d : MatGF2) => d.put (n + k) j 0) (partMat D (m4ri.diagMat A B) (n + k)) (n + k) 0 n
        (fun _ => 0) (fun j hj X => by rw [Nat.zero_add]; exact put_run (by omega) (by omega) _)
      simp only [r1, C_pure_bind]
      have r2 := rowUp (f := fun j (d : MatGF2) => do d.put (n + k) (n + j) (← (⟨m, m, B⟩ : MatGF2).get k j))
        (rect (partMat D (m4ri.diagMat A B) (n + k)) (n + k) 0 n fun _ => 0) (n + k) n m
        (fun j => if h : j < m then B ⟨k, hk⟩ ⟨j, h⟩ else 0) (fun j hj X => by
          rw [get_run hk hj, C_pure_bind, dif_pos hj]; exact put_run (by omega) (by omega) _)
      refine r2.trans ?_
      rw [two_rects, Nat.add_assoc n k 1 |>.symm, partMat_succ _ _ (show n + k < n + m by omega)]
      intro y
      have hy := y.2
      have := diag_bot A B hk hy
      refine Eq.trans ?_ this.symm
      by_cases h : y.val < n
      · rw [if_pos h, dif_pos h]
      · rw [if_neg h, dif_neg h, dif_pos (by omega)]
  · intro k hk
    have r1 := rowUp (f := fun j (d : MatGF2) => do d.put k j (← (⟨n, n, A⟩ : MatGF2).get k j))
      (partMat D (m4ri.diagMat A B) k) k 0 n (fun j => if h : j < n then A ⟨k, hk⟩ ⟨j, h⟩ else 0) (fun j hj X => by
        rw [get_run hk hj, C_pure_bind, dif_pos hj, Nat.zero_add]; exact put_run (by omega) (by omega) _)
    simp only [r1, C_pure_bind]
    have r2 := rowUp (f := fun j (d : MatGF2) => d.put k (n + j) 0)
      (rect (partMat D (m4ri.diagMat A B) k) k 0 n fun j => if h : j < n then A ⟨k, hk⟩ ⟨j, h⟩ else 0) k n m
      (fun _ => 0) (fun j hj X => put_run (by omega) (by omega) _)
    refine r2.trans ?_
    rw [two_rects, partMat_succ _ _ (show k < n + m by omega)]
    intro y
    have hy := y.2
    have := diag_top A B hk hy
    refine Eq.trans ?_ this.symm
    by_cases h : y.val < n
    · rw [if_pos h, dif_pos h]
    · rw [if_neg h, dif_neg h]

/-! ## The matrix with the translation -/

/-- The linear map and the translation as one matrix. -/
def affMat (L : Matrix (Fin n) (Fin n) (ZMod 2)) (v : Fin n → ZMod 2) : Matrix (Fin (n + 1)) (Fin (n + 1)) (ZMod 2) :=
  fun i j => if hi : i.val < n then (if hj : j.val < n then L ⟨i, hi⟩ ⟨j, hj⟩ else v ⟨i, hi⟩) else if j.val < n then 0 else 1

theorem affMat_mulVec (L : Matrix (Fin n) (Fin n) (ZMod 2)) (v x : Fin n → ZMod 2) (a : ZMod 2) :
    (affMat L v).mulVec (Fin.snoc (α := fun _ => ZMod 2) x a) = Fin.snoc (α := fun _ => ZMod 2) (L.mulVec x + a • v) a := by
  funext i
  rw [Matrix.mulVec, dotProduct, Fin.sum_univ_castSucc]
  simp only [Fin.snoc_castSucc, Fin.snoc_last]
  refine Fin.lastCases ?_ (fun i => ?_) i
  · rw [Fin.snoc_last]
    simp [affMat]
  · rw [Fin.snoc_castSucc]
    simp [affMat, Matrix.mulVec, dotProduct, mul_comm]

theorem affMat_unit {L : Matrix (Fin n) (Fin n) (ZMod 2)} (h : IsUnit L) (v : Fin n → ZMod 2) : IsUnit (affMat L v) := by
  rw [unit_iff]
  intro hd
  obtain ⟨w, hw, hz⟩ := Matrix.exists_mulVec_eq_zero_iff.2 hd
  apply hw
  have e : w = Fin.snoc (α := fun _ => ZMod 2) (fun i => w i.castSucc) (w (Fin.last n)) := by
    funext i
    refine Fin.lastCases ?_ (fun i => ?_) i
    · rw [Fin.snoc_last]
    · rw [Fin.snoc_castSucc]
  rw [e, affMat_mulVec] at hz
  have h0 : w (Fin.last n) = 0 := by
    have := congrFun hz (Fin.last n)
    rwa [Fin.snoc_last] at this
  have h1 : L.mulVec (fun i => w i.castSucc) = 0 := by
    funext i
    have := congrFun hz i.castSucc
    rw [Fin.snoc_castSucc, h0, zero_smul, add_zero] at this
    exact this
  have h2 : (fun i : Fin n => w i.castSucc) = 0 := by
    by_contra h3
    exact unit_iff.1 h (Matrix.exists_mulVec_eq_zero_iff.1 ⟨_, h3, h1⟩)
  rw [e, h2, h0]
  funext i
  refine Fin.lastCases ?_ (fun i => ?_) i
  · rw [Fin.snoc_last]; rfl
  · rw [Fin.snoc_castSucc]; rfl

theorem augment_run (stale : Nat → Nat → ZMod 2) (X : MatGF2) (L : Matrix (Fin n) (Fin n) (ZMod 2)) (v : Fin n → ZMod 2) :
    augment stale X ⟨n, n, L⟩ ⟨n, v⟩ n = .ok ⟨n + 1, n + 1, affMat L v⟩ := by
  obtain ⟨D, e⟩ := SetDims_eq stale X (n + 1) (n + 1)
  unfold augment
  simp only
  rw [e]
  have hok : Ok (forUp 0 n (⟨n + 1, n + 1, D⟩ : MatGF2) fun i X => forUp 0 n X fun j X => do
      X.put i j (← (⟨n, n, L⟩ : MatGF2).get i j)) fun X => ∃ A : Matrix (Fin (n + 1)) (Fin (n + 1)) (ZMod 2),
        X = ⟨n + 1, n + 1, A⟩ ∧ ∀ i j (hi : i < n) (hj : j < n), A ⟨i, by omega⟩ ⟨j, by omega⟩ = L ⟨i, hi⟩ ⟨j, hj⟩ := by
    refine Ok.forUp (fun k X => ∃ A : Matrix (Fin (n + 1)) (Fin (n + 1)) (ZMod 2),
        X = ⟨n + 1, n + 1, A⟩ ∧ ∀ i j (hi : i < n) (hj : j < n), i < k → A ⟨i, by omega⟩ ⟨j, by omega⟩ = L ⟨i, hi⟩ ⟨j, hj⟩)
      (Nat.zero_le _) ⟨D, rfl, fun i j _ _ h => by omega⟩ ?_ ?_
    · rintro k _ - hk ⟨A, rfl, hA⟩
      have := rowUp (f := fun j (X : MatGF2) => do X.put k j (← (⟨n, n, L⟩ : MatGF2).get k j)) A k 0 n
        (fun j => if h : j < n then L ⟨k, hk⟩ ⟨j, h⟩ else 0) (fun j hj Y => by
          rw [get_run hk hj, C_pure_bind, dif_pos hj, Nat.zero_add]; exact put_run (by omega) (by omega) _)
      refine ⟨_, this, _, rfl, fun i j hi hj h => ?_⟩
      unfold rect
      by_cases h2 : i = k
      · subst h2
        rw [if_pos (show i = i ∧ 0 ≤ j ∧ j < 0 + n from ⟨rfl, by omega, by omega⟩)]
        simp only [Nat.sub_zero]
        rw [dif_pos hj]
      · rw [if_neg (by simp only; omega)]
        exact hA i j hi hj (by omega)
    · rintro _ ⟨A, rfl, hA⟩
      exact ⟨A, rfl, fun i j hi hj => hA i j hi hj hi⟩
  obtain ⟨_, e1, A, rfl, hA⟩ := hok
  simp only [e1, C_pure_bind]
  have r1 := rowUp (f := fun j (X : MatGF2) => X.put n j 0) A n 0 n (fun _ => 0) (fun j hj Y => by
    rw [Nat.zero_add]; exact put_run (by omega) (by omega) _)
  simp only [r1, C_pure_bind]
  rw [put_run (by omega) (by omega), C_pure_bind]
  generalize hB : setEntry (rect A n 0 n fun _ => 0) n n 1 = B
  have hB1 : ∀ i j (hi : i < n) (hj : j < n), B ⟨i, by omega⟩ ⟨j, by omega⟩ = L ⟨i, hi⟩ ⟨j, hj⟩ := by
    intro i j hi hj
    rw [← hB, ← hA i j hi hj]
    unfold setEntry rect
    rw [if_neg (by simp only; omega), if_neg (by simp only; omega)]
  have hB2 : ∀ j (hj : j < n + 1), B ⟨n, by omega⟩ ⟨j, hj⟩ = if j < n then 0 else 1 := by
    intro j hj
    rw [← hB]
    unfold setEntry rect
    by_cases h : j < n
    · rw [if_neg (by simp only; omega), if_pos (show n = n ∧ 0 ≤ j ∧ j < 0 + n from ⟨rfl, by omega, by omega⟩), if_pos h]
    · rw [if_pos (show n = n ∧ j = n from ⟨rfl, by omega⟩), if_neg h]
  have hcol : Ok (forUp 0 n (⟨n + 1, n + 1, B⟩ : MatGF2) fun i X => do X.put i n (← (⟨n, v⟩ : VecGF2).get i)) fun X =>
      X = ⟨n + 1, n + 1, affMat L v⟩ := by
    refine Ok.forUp (fun k X => ∃ Y : Matrix (Fin (n + 1)) (Fin (n + 1)) (ZMod 2), X = ⟨n + 1, n + 1, Y⟩ ∧
      ∀ i j, Y i j = if j.val = n ∧ i.val < k then affMat L v i j else B i j) (Nat.zero_le _)
      ⟨B, rfl, fun i j => (if_neg (by omega)).symm⟩ ?_ ?_
    · rintro k _ - hk ⟨Y, rfl, hY⟩
      rw [vget_run hk, C_pure_bind, put_run (by omega) (by omega), Ok.ok_iff]
      refine ⟨_, rfl, fun i j => ?_⟩
      unfold setEntry
      by_cases h : i.val = k ∧ j.val = n
      · rw [if_pos h, if_pos (by omega)]
        unfold affMat
        rw [dif_pos (by omega), dif_neg (by omega)]
        congr 1
        exact Fin.ext h.1.symm
      · rw [if_neg h, hY]
        by_cases h2 : j.val = n ∧ i.val < k
        · rw [if_pos h2, if_pos (by omega)]
        · rw [if_neg h2, if_neg (by omega)]
    · rintro _ ⟨Y, rfl, hY⟩
      congr 1
      funext i j
      rw [hY]
      have hi := i.2
      have hj := j.2
      by_cases h : j.val = n ∧ i.val < n
      · rw [if_pos h]
      · rw [if_neg h]
        unfold affMat
        by_cases h1 : i.val < n
        · rw [dif_pos h1, dif_pos (by omega)]
          exact hB1 i j h1 (by omega)
        · rw [dif_neg h1]
          have : i = ⟨n, by omega⟩ := Fin.ext (by simp only; omega)
          rw [this]
          exact hB2 j hj
  exact Ok.eq.1 hcol

end WB.ntl
