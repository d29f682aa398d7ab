import Verif.Proof.MatGf2

/-!
# The operations of the matrix layer on top of M4RI (helper lemmas)
-/
namespace WB.m4ri

variable {s : Heap} {lib : M4ri}

theorem bitF_inj {a b : Bool} (h : bitF a = bitF b) : a = b := by
  revert h; cases a <;> cases b <;> decide

theorem bitF_xor (a b : Bool) : bitF (a ^^ b) = bitF a + bitF b := by cases a <;> cases b <;> decide

/-! ## Operations that allocate their result -/

theorem mul_run (hl : lib.Ok) (hs : s.Ok) {a b r k c : Nat} {A : Matrix (Fin r) (Fin k) (ZMod 2)}
    {B : Matrix (Fin k) (Fin c) (ZMod 2)} (ha : Points s a A) (hb : Points s b B) (hk : 0 < k := by omega) (hc : 0 < c := by omega) :
    ∃ m, GenMatGf2Mul lib a b s = .ok (s.next, push s m) ∧ Is m (A * B) := by
  obtain ⟨ma, ha, hA⟩ := ha
  obtain ⟨mb, hb, hB⟩ := hb
  refine ⟨lib.mul ma mb, ?_, hl.mul hk hc hA hB⟩
  rw [GenMatGf2Mul, mzd_mul_m4rm, MM_bind (deref_run hs ha), MM_bind (deref_run hs hb),
    if_neg (by rw [hA.ncols, hB.nrows]; simp)]
  rfl

theorem inv_run (hl : lib.Ok) (hs : s.Ok) {a n : Nat} {A : Matrix (Fin n) (Fin n) (ZMod 2)}
    (ha : Points s a A) (hu : IsUnit A) (hn : 0 < n := by omega) :
    ∃ m, GenMatGf2Inv lib a s = .ok (s.next, push s m) ∧ Is m A⁻¹ := by
  obtain ⟨ma, ha, hA⟩ := ha
  refine ⟨lib.inv ma, ?_, hl.inv hn hA hu⟩
  rw [GenMatGf2Inv, mzd_inv_m4ri, MM_bind (deref_run hs ha), if_neg (by rw [hA.ncols, hA.nrows]; simp)]
  rfl

theorem transpose_run (hl : lib.Ok) (hs : s.Ok) {a r c : Nat} {A : Matrix (Fin r) (Fin c) (ZMod 2)}
    (hr : 0 < r) (hc : 0 < c) (ha : Points s a A) :
    ∃ m, mzd_transpose lib a s = .ok (s.next, push s m) ∧ Is m A.transpose := by
  obtain ⟨ma, ha, hA⟩ := ha
  refine ⟨lib.transpose ma, ?_, hl.transpose hr hc hA⟩
  rw [mzd_transpose, MM_bind (deref_run hs ha)]
  rfl

theorem add_run (hs : s.Ok) {a b r c : Nat} {A B : Matrix (Fin r) (Fin c) (ZMod 2)}
    (ha : Points s a A) (hb : Points s b B) :
    ∃ m, GenMatGf2Add a b s = .ok (s.next, push s m) ∧ Is m (A + B) := by
  obtain ⟨ma, ha, hA⟩ := ha
  obtain ⟨mb, hb, hB⟩ := hb
  refine ⟨⟨ma.nrows, ma.ncols, fun i j => ma.bit i j ^^ mb.bit i j⟩, ?_, hA.nrows, hA.ncols, ?_⟩
  · rw [GenMatGf2Add, mzd_add, MM_bind (deref_run hs ha), MM_bind (deref_run hs hb),
      if_neg (by rw [hA.ncols, hA.nrows, hB.nrows, hB.ncols]; simp)]
    rfl
  · intro i j
    rw [Matrix.add_apply, ← hA.bit, ← hB.bit]
    exact bitF_xor _ _

theorem copy_run (hs : s.Ok) {a r c : Nat} {A : Matrix (Fin r) (Fin c) (ZMod 2)} (ha : Points s a A)
    (hrc : 0 < c ∨ r = 0 := by omega) :
    ∃ m, GenMatGf2Copy a s = .ok (s.next, push s m) ∧ Is m A := by
  obtain ⟨ma, ha, hA⟩ := ha
  refine ⟨ma, ?_, hA⟩
  rw [GenMatGf2Copy, mzd_copy, MM_bind (deref_run hs ha), if_neg (by rw [hA.ncols, hA.nrows]; omega)]
  rfl

theorem stack_run (hs : s.Ok) {a b r₁ r₂ c : Nat} {A : Matrix (Fin r₁) (Fin c) (ZMod 2)}
    {B : Matrix (Fin r₂) (Fin c) (ZMod 2)} (ha : Points s a A) (hb : Points s b B) :
    ∃ m, GenMatGf2Stack a b s = .ok (s.next, push s m) ∧ Is m (stackMat A B) := by
  obtain ⟨ma, ha, hA⟩ := ha
  obtain ⟨mb, hb, hB⟩ := hb
  refine ⟨⟨ma.nrows + mb.nrows, ma.ncols, fun i j => if i < ma.nrows then ma.bit i j else mb.bit (i - ma.nrows) j⟩,
    ?_, by simp [hA.nrows, hB.nrows], hA.ncols, ?_⟩
  · rw [GenMatGf2Stack, mzd_stack, MM_bind (deref_run hs ha), MM_bind (deref_run hs hb),
      if_neg (by rw [hA.ncols, hB.ncols]; simp)]
    rfl
  · intro i j
    induction i using Fin.addCases with
    | left i => simp [stackMat, hA.nrows, hA.bit]
    | right i => simp [stackMat, hA.nrows, hB.bit]

theorem concat_run (hs : s.Ok) {a b r c₁ c₂ : Nat} {A : Matrix (Fin r) (Fin c₁) (ZMod 2)}
    {B : Matrix (Fin r) (Fin c₂) (ZMod 2)} (ha : Points s a A) (hb : Points s b B) :
    ∃ m, GenMatGf2Concat a b s = .ok (s.next, push s m) ∧ Is m (concatMat A B) := by
  obtain ⟨ma, ha, hA⟩ := ha
  obtain ⟨mb, hb, hB⟩ := hb
  refine ⟨⟨ma.nrows, ma.ncols + mb.ncols, fun i j => if j < ma.ncols then ma.bit i j else mb.bit i (j - ma.ncols)⟩,
    ?_, hA.nrows, by simp [hA.ncols, hB.ncols], ?_⟩
  · rw [GenMatGf2Concat, mzd_concat, MM_bind (deref_run hs ha), MM_bind (deref_run hs hb),
      if_neg (by rw [hA.nrows, hB.nrows]; simp)]
    rfl
  · intro i j
    induction j using Fin.addCases with
    | left j => simp [concatMat, hA.ncols, hA.bit]
    | right j => simp [concatMat, hA.ncols, hB.bit]

/-! ## Operations that free the old value of the destination -/

theorem CanFree.push {dst : Nat} (hs : s.Ok) (m : Mzd) (h : CanFree s dst) : CanFree (push s m) dst := by
  rcases h with rfl | ⟨a, h⟩
  · exact .inl rfl
  · exact .inr ⟨a, push_old hs m h⟩

theorem free_any {dst : Nat} (hs : s.Ok) (h : CanFree s dst) : MatGf2Free dst s = .ok ((), setObj s dst none) := by
  rcases h with rfl | ⟨a, h⟩
  · rw [free_null, setObj_eq_self hs.null]
  · exact free_run hs h

/-- A function that computes first and frees the destination afterwards. -/
theorem thenFree {x : MM Nat} {dst : Nat} {m : Mzd} (hs : s.Ok) (hd : CanFree s dst)
    (hx : x s = .ok (s.next, push s m)) :
    (do let r ← x; MatGf2Free dst; pure r : MM Nat) s = .ok (s.next, setObj (push s m) dst none) := by
  rw [MM_bind hx, MM_bind (free_any (hs.push m) (hd.push hs m))]
  rfl

/-! ## Columns and numbers -/

theorem newVec_run {w n : Nat} (hs : s.Ok) (x : BitVec w) :
    ∃ m, (do let a ← GenMatGf2 n 1; initVec x a; pure a : MM Nat) s = .ok (s.next, push s m) ∧
      Is m (colVec n x) := by
  have h1 : GenMatGf2 n 1 s = .ok (s.next, push s ⟨n, 1, fun _ _ => false⟩) := rfl
  obtain ⟨_, s', e, m', rfl, hr, hc, hb⟩ := initVec_run (hs.push ⟨n, 1, fun _ _ => false⟩) (push_self _ _) (by simp) x
  refine ⟨m', ?_, hr, hc, ?_⟩
  · rw [MM_bind h1, MM_bind e, setObj_push_some]; rfl
  · intro i j
    obtain rfl : j = 0 := Subsingleton.elim _ _
    have := hb i 0 i.2 (Nat.zero_lt_one)
    show bitF (m'.bit i 0) = _
    rw [this]
    rfl

/-- A sequence that starts with a new column. -/
theorem newVec_bind {w n : Nat} {β : Type} (hs : s.Ok) (x : BitVec w) (f : Nat → MM β) :
    ∃ m, (do let a ← GenMatGf2 n 1; initVec x a; f a : MM β) s = f s.next (push s m) ∧ Is m (colVec n x) := by
  obtain ⟨m, e, hm⟩ := newVec_run (n := n) hs x
  refine ⟨m, ?_, hm⟩
  have : (do let a ← GenMatGf2 n 1; initVec x a; f a : MM β)
      = ((do let a ← GenMatGf2 n 1; initVec x a; pure a : MM Nat) >>= f) := by simp
  rw [this, MM_bind e]

theorem Points.push {r c p : Nat} {A : Matrix (Fin r) (Fin c) (ZMod 2)} (hs : s.Ok) (h : Points s p A) (m : Mzd) :
    Points (push s m) p A := by
  obtain ⟨a, h, hA⟩ := h
  exact ⟨a, push_old hs m h, hA⟩

theorem Points.of_push {r c : Nat} {A : Matrix (Fin r) (Fin c) (ZMod 2)} {m : Mzd} (h : Is m A) :
    Points (m4ri.push s m) s.next A := ⟨m, push_self _ _, h⟩

theorem digital_run {w n p : Nat} (hn : n ≤ w) {V : Matrix (Fin n) (Fin 1) (ZMod 2)} (hs : s.Ok) (h : Points s p V) :
    ∃ y : BitVec w, getDigital w p s = .ok (y, s) ∧ ∀ i : Fin n, bitF (bitS n y i) = V i 0 := by
  obtain ⟨m, hp, hV⟩ := h
  obtain ⟨y, e, hy⟩ := getDigital_run (w := w) hs hp hV.ncols
  refine ⟨y, e, ?_⟩
  intro i
  have hi := i.2
  rw [bitS, hy _ (by omega), ← hV.bit, hV.nrows, show n - 1 - (n - 1 - i.val) = i.val by omega]
  have : n - 1 - i.val < n := by omega
  simp [this]

theorem colVec_mulVec {r n w : Nat} (A : Matrix (Fin r) (Fin n) (ZMod 2)) (x : BitVec w) (i : Fin r) :
    (A * colVec n x) i 0 = A.mulVec (vecOf n (bitS n) x) i := rfl

/-- After the product with a column has been written to a new matrix, the column and, at the end, the product are freed. -/
theorem freeTwo (hs : s.Ok) (m m' : Mzd) :
    setObj (setObj (push (push s m) m') s.next none) (s.next + 1) none = { s with next := s.next + 2 } := by
  have : Function.update (Function.update (Function.update (Function.update s.obj s.next (some m)) (s.next + 1) (some m'))
      s.next none) (s.next + 1) none = s.obj := by
    funext q
    by_cases h1 : q = s.next + 1
    · subst h1; simp [hs.fresh]
    · by_cases h2 : q = s.next
      · subst h2; simp [hs.fresh]
      · simp [h1, h2]
  simp only [setObj, push, this]

theorem mulTwo_run (hl : lib.Ok) (hs : s.Ok) {mat r n : Nat} {w : Nat} {A : Matrix (Fin r) (Fin n) (ZMod 2)}
    (ha : Points s mat A) (x : BitVec w) {m : Mzd} (hm : Is m (colVec n x)) (hn : 0 < n := by omega) :
    ∃ m', MatGf2Mul lib mat s.next s.next (push s m)
        = .ok (s.next + 1, setObj (push (push s m) m') s.next none) ∧ Is m' (A * colVec n x) := by
  obtain ⟨m', e, hm'⟩ := mul_run hl (hs.push m) (ha.push hs m) (Points.of_push hm)
  refine ⟨m', ?_, hm'⟩
  rw [MatGf2Mul]
  exact thenFree (hs.push m) (.inr ⟨m, push_self _ _⟩) e

theorem addTwo_run (hs : s.Ok) {mat n : Nat} {w : Nat} {A : Matrix (Fin n) (Fin 1) (ZMod 2)}
    (ha : Points s mat A) (x : BitVec w) {m : Mzd} (hm : Is m (colVec n x)) :
    ∃ m', MatGf2Add mat s.next s.next (push s m)
        = .ok (s.next + 1, setObj (push (push s m) m') s.next none) ∧ Is m' (A + colVec n x) := by
  obtain ⟨m', e, hm'⟩ := add_run (hs.push m) (ha.push hs m) (Points.of_push hm)
  refine ⟨m', ?_, hm'⟩
  rw [MatGf2Add]
  exact thenFree (hs.push m) (.inr ⟨m, push_self _ _⟩) e

theorem two_ok (hs : s.Ok) (m m' : Mzd) : (setObj (push (push s m) m') s.next none).Ok := ((hs.push m).push m').setNone _

theorem two_obj (s : Heap) (m m' : Mzd) : (setObj (push (push s m) m') s.next none).obj (s.next + 1) = some m' := by
  rw [setObj_ne _ _ (by omega)]
  exact push_self (push s m) m'

/-- A number written into a column is read back. -/
theorem setWidth_bit {w v : Nat} (hv : w ≤ v) (n : Nat) (hn : n ≤ w) (x : BitVec w) :
    colVec n (x.setWidth v) = colVec n x := by
  funext i j
  have := i.2
  have h : n - 1 - i.val < v := by omega
  simp [colVec, bitS, h]

/-! ## Writing a whole matrix -/

theorem writeAll {p : Nat} {m : Mzd} (hs : s.Ok) (hp : s.obj p = some m) (v : Nat → Nat → Int)
    (f : Nat → Unit → MM Unit)
    (hf : ∀ i s', i < m.nrows → (∃ g, Wrote s p m g s') →
      f i () s' = (forUp 0 m.ncols () fun j _ => MatGf2Set p i j (v i j)) s') :
    Run (forUp 0 m.nrows () f) s fun _ s' => Wrote s p m (fun i j => setBit (v i j) j) s' := by
  refine Run.forUp (fun i _ s' => Wrote s p m (fun r c => if r < i then setBit (v r c) c else m.bit r c) s')
    (Nat.zero_le _) ?_ ?_ ?_
  · exact (Wrote.refl hp).congr (by intro i j _ _; simp)
  · intro i _ s' _ hi hw
    have : Run (forUp 0 m.ncols () fun j _ => MatGf2Set p i j (v i j)) s' fun _ s'' =>
        Wrote s p m (fun r c => if r < i + 1 then setBit (v r c) c else m.bit r c) s'' := by
      refine Run.forUp (fun j _ s'' => Wrote s p m
        (fun r c => if r < i ∨ (r = i ∧ c < j) then setBit (v r c) c else m.bit r c) s'') (Nat.zero_le _) ?_ ?_ ?_
      · exact hw.congr (by intro r c _ _; simp)
      · intro j _ s'' _ hj hw'
        refine (hw'.set hs hp (v i j) hi hj).mono ?_
        intro _ s3 hw3
        refine hw3.congr ?_
        intro r c _ _
        by_cases h : r = i ∧ c = j
        · obtain ⟨rfl, rfl⟩ := h; simp
        · rw [if_neg h]
          by_cases h2 : r < i ∨ (r = i ∧ c < j)
          · rw [if_pos h2, if_pos (by omega)]
          · rw [if_neg h2, if_neg (by omega)]
      · intro _ s'' hw'
        refine hw'.congr ?_
        intro r c _ hc
        by_cases h : r < i + 1
        · rw [if_pos h, if_pos (by omega)]
        · rw [if_neg h, if_neg (by omega)]
    obtain ⟨a, s3, e, h⟩ := this
    exact ⟨a, s3, by rw [hf i s' hi ⟨_, hw⟩, e], h⟩
  · intro _ s' hw
    refine hw.congr ?_
    intro i j hi _
    rw [if_pos hi]

theorem Wrote.is {p r c : Nat} {m : Mzd} {f : Nat → Nat → Bool} {s' : Heap} (h : Wrote s p m f s')
    (hr : m.nrows = r) (hc : m.ncols = c) : ∃ m', s' = setObj s p (some m') ∧ Is m' (bitMat r c f) := by
  obtain ⟨m', e, h1, h2, h3⟩ := h
  exact ⟨m', e, h1.trans hr, h2.trans hc, fun i j => by
    rw [h3 i j (by rw [hr]; exact i.2) (by rw [hc]; exact j.2)]; rfl⟩

end WB.m4ri
