import Verif.Proof.NtlUtils

/-!
# The generators of the programs that use NTL (helper lemmas)
-/
namespace WB.ntl

variable {α β σ : Type} {n : Nat} {s : Rnd}

/-! ## More attempts -/

/-- Whenever `x` returns, `y` returns the same. -/
def Le (x y : NM α) : Prop := ∀ s r, x s = .ok r → y s = .ok r

theorem Le.refl (x : NM α) : Le x x := fun _ _ h => h

theorem Le.bind {x y : NM α} {f g : α → NM β} (h : Le x y) (hf : ∀ a, Le (f a) (g a)) : Le (x >>= f) (y >>= g) := by
  intro s r e
  cases e1 : x s with
  | error e2 => rw [NM_bind_err e1] at e; cases e
  | ok p =>
    obtain ⟨a, s'⟩ := p
    rw [NM_bind e1] at e
    rw [NM_bind (h s _ e1)]
    exact hf a s' r e

theorem Le.foldlM {f g : Nat → σ → NM σ} (h : ∀ i t, Le (f i t) (g i t)) : ∀ (l : List Nat) (t : σ),
    Le (l.foldlM (fun t i => f i t) t) (l.foldlM (fun t i => g i t) t)
  | [], t => Le.refl _
  | a :: l, t => by
    rw [List.foldlM_cons, List.foldlM_cons]
    exact (h a t).bind fun t => Le.foldlM h l t

theorem drawRow_le : ∀ {fuel fuel' : Nat} (_ : fuel ≤ fuel') (L : MatGF2) (i c : Nat), Le (drawRow L i c fuel) (drawRow L i c fuel')
  | 0, _, _, L, i, c => fun _ _ h => by cases h
  | fuel + 1, fuel', h, L, i, c => by
    obtain ⟨f, rfl⟩ : ∃ f, fuel' = f + 1 := ⟨fuel' - 1, by omega⟩
    rw [drawRow, drawRow]
    refine (Le.refl _).bind ?_
    rintro ⟨L, hw⟩
    by_cases h1 : hw = 1
    · simp only [if_pos h1]
      exact drawRow_le (by omega) L i c
    · simp only [if_neg h1]
      exact Le.refl _

theorem fillMat_le {fuel fuel' : Nat} (h : fuel ≤ fuel') (L : MatGF2) (r c : Nat) : Le (fillMat fuel L r c) (fillMat fuel' L r c) :=
  Le.foldlM (f := fun i L => drawRow L i c fuel) (g := fun i L => drawRow L i c fuel') (fun i L => drawRow_le h L i c) _ L

theorem drawMat_le {fuel0 fuel0' : Nat} (h0 : fuel0 ≤ fuel0') : ∀ {fuel fuel' : Nat} (_ : fuel ≤ fuel') (L : MatGF2) (n : Nat),
    Le (drawMat fuel0 L n fuel) (drawMat fuel0' L n fuel')
  | 0, _, _, L, n => fun _ _ h => by cases h
  | fuel + 1, fuel', h, L, n => by
    obtain ⟨f, rfl⟩ : ∃ f, fuel' = f + 1 := ⟨fuel' - 1, by omega⟩
    rw [drawMat, drawMat]
    refine (fillMat_le h0 L n n).bind fun L => (Le.refl _).bind fun d => ?_
    by_cases h1 : d = 0
    · rw [if_pos h1, if_pos h1]
      exact drawMat_le h0 (by omega) L n
    · rw [if_neg h1, if_neg h1]
      exact Le.refl _

theorem randomInvertible_le (stale : Nat → Nat → ZMod 2) {fuel0 fuel0' : Nat} (h0 : fuel0 ≤ fuel0') :
    ∀ {fuel fuel' : Nat} (_ : fuel ≤ fuel') (L : MatGF2) (n : Nat),
    Le (randomInvertible stale fuel0 L n fuel) (randomInvertible stale fuel0' L n fuel')
  | 0, _, _, L, n => fun _ _ h => by cases h
  | fuel + 1, fuel', h, L, n => by
    obtain ⟨f, rfl⟩ : ∃ f, fuel' = f + 1 := ⟨fuel' - 1, by omega⟩
    rw [randomInvertible, randomInvertible]
    refine (fillMat_le h0 _ n n).bind fun L => (Le.refl _).bind fun d => ?_
    by_cases h1 : d = 0
    · rw [if_pos h1, if_pos h1]
      exact randomInvertible_le stale h0 (by omega) L n
    · rw [if_neg h1, if_neg h1]
      exact Le.refl _

/-! ## The results -/

theorem inv_both {A : Matrix (Fin n) (Fin n) (ZMod 2)} (h : IsUnit A) : A * A⁻¹ = 1 ∧ A⁻¹ * A = 1 :=
  ⟨Matrix.mul_nonsing_inv _ ((Matrix.isUnit_iff_isUnit_det _).1 h), Matrix.nonsing_inv_mul _ ((Matrix.isUnit_iff_isUnit_det _).1 h)⟩

theorem init_run (stale : Nat → Nat → ZMod 2) (fuel : Nat) (self : RandMat) (n : Nat) (s : Rnd) :
    Run (RandMat.init stale fuel self n) s fun r => ∃ A : Matrix (Fin n) (Fin n) (ZMod 2), NoUnitRow A ∧ IsUnit A ∧
      r = ⟨n, ⟨n, n, A⟩, ⟨n, n, A⁻¹⟩⟩ := by
  unfold RandMat.init
  obtain ⟨D, e⟩ := SetDims_eq stale default n n
  simp only [if_true, e]
  refine Run.bind (drawMat_run fuel fuel D s) ?_
  rintro _ s' ⟨A, h1, h2, rfl⟩
  exact Run.step (inv_run h2) (Run.pure ⟨A, h1, h2, rfl⟩)

theorem init_can (stale : Nat → Nat → ZMod 2) {fuel : Nat} (hf : 1 ≤ fuel) (self : RandMat)
    {A : Matrix (Fin n) (Fin n) (ZMod 2)} (h : NoUnitRow A) (hu : IsUnit A) :
    Can (RandMat.init stale fuel self n) fun r => r = ⟨n, ⟨n, n, A⟩, ⟨n, n, A⁻¹⟩⟩ := by
  unfold RandMat.init
  obtain ⟨D, e⟩ := SetDims_eq stale default n n
  simp only [if_true, e]
  refine (drawMat_can hf hf D A h hu).bind ?_
  rintro _ rfl
  refine (Can.lift (Q := fun L => L = ⟨n, n, A⁻¹⟩) (Ok.eq.2 (inv_run hu))).bind ?_
  rintro _ rfl
  exact Can.pure rfl

theorem init_false_run (stale : Nat → Nat → ZMod 2) (fuel : Nat) (self : RandMat) (n : Nat) (s : Rnd) :
    Run (RandMat.init stale fuel self n false) s fun r => ∃ A : Matrix (Fin n) (Fin n) (ZMod 2), NoUnitRow A ∧
      r = ⟨n, ⟨n, n, A⟩, self.invMat⟩ := by
  unfold RandMat.init
  obtain ⟨D, e⟩ := SetDims_eq stale default n n
  simp only [e]
  refine Run.bind (fillMat_run fuel D s) ?_
  rintro _ s' ⟨A, h1, rfl⟩
  exact Run.pure ⟨A, h1, rfl⟩

theorem InvTMat_run (stale : Nat → Nat → ZMod 2) (fuel n : Nat) (s : Rnd) :
    Run (InvTMat stale fuel n) s fun r => ∃ A : Matrix (Fin n) (Fin n) (ZMod 2), NoUnitRow A ∧ IsUnit A ∧ r = ⟨n, n, A⟩ := by
  unfold InvTMat
  obtain ⟨D, e⟩ := SetDims_eq stale default n n
  rw [e]
  exact drawMat_run fuel fuel D s

theorem initVec_eq (n : Nat) (s : Rnd) : initVec n s = .ok (⟨n, slice s.bits s.pos n⟩, { s with pos := s.pos + n }) := by
  unfold initVec
  obtain ⟨v, e⟩ := SetLength_eq default n
  simp only [e]
  have := forUp_eq (hi := n) (f := fun j (x : VecGF2) => do liftC (x.put j (← random_GF2)))
    (fun k => ⟨n, vecTo v (slice s.bits s.pos n) k⟩) (fun k => { s with pos := s.pos + k }) ?_
  · simp only [vecTo_zero, vecTo_all, Nat.add_zero] at this
    exact this
  · intro k hk
    have h1 : random_GF2 { s with pos := s.pos + k } = .ok (slice s.bits s.pos n ⟨k, hk⟩, { s with pos := s.pos + (k + 1) }) := rfl
    rw [NM_bind h1, liftC_run (vput_run hk _), vecTo_succ]

theorem randomVec_eq (n : Nat) (s : Rnd) : randomVec n s = .ok (⟨n, slice s.bits s.pos n⟩, { s with pos := s.pos + n }) := rfl

theorem randomVec_run (n : Nat) (s : Rnd) : Run (randomVec n) s fun x => ∃ v : Fin n → ZMod 2, x = ⟨n, v⟩ :=
  .inl ⟨_, _, rfl, _, rfl⟩

theorem genInv_run (stale : Nat → Nat → ZMod 2) (fuel : Nat) (x y : MatGF2) (n : Nat) (s : Rnd) :
    Run (genRandomInvMatrix stale fuel x y n) s fun r => ∃ A : Matrix (Fin n) (Fin n) (ZMod 2), NoUnitRow A ∧ IsUnit A ∧
      r = (⟨n, n, A⟩, ⟨n, n, A⁻¹⟩) := by
  unfold genRandomInvMatrix
  refine Run.bind (randomInvertible_run stale fuel fuel x s) ?_
  rintro _ s' ⟨A, h1, h2, rfl⟩
  exact Run.step (invTo_run y h2) (Run.pure ⟨A, h1, h2, rfl⟩)

theorem genInv_can (stale : Nat → Nat → ZMod 2) {fuel : Nat} (hf : 1 ≤ fuel) (x y : MatGF2)
    {A : Matrix (Fin n) (Fin n) (ZMod 2)} (h : NoUnitRow A) (hu : IsUnit A) :
    Can (genRandomInvMatrix stale fuel x y n) fun r => r = (⟨n, n, A⟩, ⟨n, n, A⁻¹⟩) := by
  unfold genRandomInvMatrix
  refine (randomInvertible_can stale hf hf x A h hu).bind ?_
  rintro _ rfl
  refine (Can.lift (Q := fun L => L = ⟨n, n, A⁻¹⟩) (Ok.eq.2 (invTo_run y hu))).bind ?_
  rintro _ rfl
  exact Can.pure rfl

theorem genAffine_run (stale : Nat → Nat → ZMod 2) (fuel : Nat) (x y : MatGF2) (n : Nat) (s : Rnd) :
    Run (genRandomAffineMatrix stale fuel x y n) s fun r => ∃ (A : Matrix (Fin n) (Fin n) (ZMod 2)) (v : Fin n → ZMod 2),
      NoUnitRow A ∧ IsUnit A ∧ r = (⟨n, n, A⟩, ⟨n, n, A⁻¹⟩, ⟨n, v⟩) := by
  unfold genRandomAffineMatrix
  refine Run.bind (randomInvertible_run stale fuel fuel x s) ?_
  rintro _ s' ⟨A, h1, h2, rfl⟩
  refine Run.step (invTo_run y h2) (Run.bind (randomVec_run n s') ?_)
  rintro _ s2 ⟨v, rfl⟩
  exact Run.pure ⟨A, v, h1, h2, rfl⟩

theorem genAffine_can (stale : Nat → Nat → ZMod 2) {fuel : Nat} (hf : 1 ≤ fuel) (x y : MatGF2)
    {A : Matrix (Fin n) (Fin n) (ZMod 2)} (h : NoUnitRow A) (hu : IsUnit A) (v : Fin n → ZMod 2) :
    Can (genRandomAffineMatrix stale fuel x y n) fun r => r = (⟨n, n, A⟩, ⟨n, n, A⁻¹⟩, ⟨n, v⟩) := by
  unfold genRandomAffineMatrix
  refine (randomInvertible_can stale hf hf x A h hu).bind ?_
  rintro _ rfl
  refine (Can.lift (Q := fun L => L = ⟨n, n, A⁻¹⟩) (Ok.eq.2 (invTo_run y hu))).bind ?_
  rintro _ rfl
  refine (randomVec_can v).bind ?_
  rintro _ rfl
  exact Can.pure rfl

theorem genAffine2_run (stale : Nat → Nat → ZMod 2) (fuel : Nat) (x y : MatGF2) (n : Nat) (s : Rnd) :
    Run (genRandomAffineMatrix2 stale fuel x y n) s fun r => ∃ (A : Matrix (Fin n) (Fin n) (ZMod 2)) (v : Fin n → ZMod 2),
      NoUnitRow A ∧ IsUnit A ∧ r = (⟨n, n, A⟩, ⟨n, n, A⁻¹⟩, ⟨n, v⟩, ⟨n, A⁻¹.mulVec v⟩) := by
  unfold genRandomAffineMatrix2
  refine Run.bind (randomInvertible_run stale fuel fuel x s) ?_
  rintro _ s' ⟨A, h1, h2, rfl⟩
  refine Run.step (invTo_run y h2) (Run.bind (randomVec_run n s') ?_)
  rintro _ s2 ⟨v, rfl⟩
  exact Run.step (mulVec_run _ _) (Run.pure ⟨A, v, h1, h2, rfl⟩)

theorem genAug_run (stale : Nat → Nat → ZMod 2) (fuel : Nat) (x y : MatGF2) (n : Nat) (s : Rnd) :
    Run (genRandomAffineAugmentedMatrix stale fuel x y n) s fun r =>
      ∃ (A : Matrix (Fin n) (Fin n) (ZMod 2)) (v : Fin n → ZMod 2), NoUnitRow A ∧ IsUnit A ∧
      r = (⟨n + 1, n + 1, affMat A v⟩, ⟨n + 1, n + 1, (affMat A v)⁻¹⟩) := by
  unfold genRandomAffineAugmentedMatrix
  refine Run.bind (randomInvertible_run stale fuel fuel default s) ?_
  rintro _ s' ⟨A, h1, h2, rfl⟩
  refine Run.step (inv_run h2) (Run.bind (randomVec_run n s') ?_)
  rintro _ s2 ⟨v, rfl⟩
  exact Run.step (augment_run stale x A v) (Run.step (invTo_run y (affMat_unit h2 v)) (Run.pure ⟨A, v, h1, h2, rfl⟩))

/-! ## Conversions -/

theorem digits_short (w : Nat) {m : Nat} (v : Fin n → ZMod 2) (h : n < m) : digits w ⟨n, v⟩ m = .error .oob := by
  unfold digits forUp
  rw [show m - 0 = n + (m - n - 1 + 1) by omega, ← List.range'_append, List.foldlM_append]
  have := digits_run w v (Nat.le_refl n)
  obtain ⟨y, e, -⟩ := this
  unfold digits forUp at e
  rw [Nat.sub_zero] at e
  rw [e]
  show List.foldlM _ y _ = _
  rw [List.range'_succ, List.foldlM_cons]
  unfold VecGF2.get
  simp only
  rw [dif_neg (by omega)]
  rfl

theorem setWidth_back (y : BitVec 8) : (y.setWidth 32).setWidth 8 = y := by
  rw [BitVec.setWidth_setWidth_of_le _ (by decide), BitVec.setWidth_eq]

variable {W : Nat}

theorem ok_bind {x : C α} {a : α} {f : α → C β} (h : x = .ok a) : (x >>= f) = f a := by rw [h]; rfl

theorem applyAffine32_of (hW : 32 ≤ W) (A : Matrix (Fin 32) (Fin 32) (ZMod 2)) (v : Fin 32 → ZMod 2) (x : BitVec 32) :
    applyAffineToU32 W ⟨⟨32, 32, A⟩, ⟨32, v⟩⟩ x = get32FromVec ⟨32, A.mulVec (numBits 32 x) + v⟩ := by
  unfold applyAffineToU32
  rw [ok_bind ((initVec_num _ _ hW).trans (congrArg Except.ok (numVec_setWidth x hW)))]
  unfold numVec
  rw [ok_bind (mulVec_run _ _)]
  rw [ok_bind (addVec_run _ _)]

theorem applyAffine8_of (hW : 8 ≤ W) (A : Matrix (Fin 8) (Fin 8) (ZMod 2)) (v : Fin 8 → ZMod 2) (x : BitVec 8) :
    applyAffineToU8 W ⟨⟨8, 8, A⟩, ⟨8, v⟩⟩ x =
      (getDigitalFromVec ⟨8, A.mulVec (numBits 8 x) + v⟩ >>= fun y => pure (y.setWidth 8)) := by
  unfold applyAffineToU8
  rw [ok_bind ((initVec_num _ _ hW).trans (congrArg Except.ok (numVec_setWidth x hW)))]
  unfold numVec
  rw [ok_bind (mulVec_run _ _)]
  rw [ok_bind (addVec_run _ _)]

theorem applyMat32_of (hW : 32 ≤ W) (A : Matrix (Fin 32) (Fin 32) (ZMod 2)) (x : BitVec 32) :
    applyMatToU32 W ⟨32, 32, A⟩ x = getDigitalFromVec ⟨32, A.mulVec (numBits 32 x)⟩ := by
  unfold applyMatToU32
  rw [ok_bind ((initVec_num _ _ hW).trans (congrArg Except.ok (numVec_setWidth x hW)))]
  unfold numVec
  rw [ok_bind (mulVec_run _ _)]

theorem applyMat8_of (hW : 8 ≤ W) (A : Matrix (Fin 8) (Fin 8) (ZMod 2)) (x : BitVec 8) :
    applyMatToU8 W ⟨8, 8, A⟩ x = (getDigitalFromVec ⟨8, A.mulVec (numBits 8 x)⟩ >>= fun y => pure (y.setWidth 8)) := by
  unfold applyMatToU8
  rw [ok_bind ((initVec_num _ _ hW).trans (congrArg Except.ok (numVec_setWidth x hW)))]
  unfold numVec
  rw [ok_bind (mulVec_run _ _)]

theorem addVec32_of (hW : 32 ≤ W) (v : Fin 32 → ZMod 2) (x : BitVec 32) :
    addVecToU32 W ⟨32, v⟩ x = getDigitalFromVec ⟨32, v + numBits 32 x⟩ := by
  unfold addVecToU32
  rw [ok_bind ((initVec_num _ _ hW).trans (congrArg Except.ok (numVec_setWidth x hW)))]
  unfold numVec
  rw [ok_bind (addVec_run _ _)]

theorem addVec8_of (hW : 8 ≤ W) (v : Fin 8 → ZMod 2) (x : BitVec 8) :
    addVecToU8 W ⟨8, v⟩ x = (getDigitalFromVec ⟨8, v + numBits 8 x⟩ >>= fun y => pure (y.setWidth 8)) := by
  unfold addVecToU8
  rw [ok_bind ((initVec_num _ _ hW).trans (congrArg Except.ok (numVec_setWidth x hW)))]
  unfold numVec
  rw [ok_bind (addVec_run _ _)]

/-! ## Printing -/

theorem forUp_out {hi : Nat} {f : Nat → Unit → StateT Out (Except Fault) Unit} (g : Fin hi → List Char)
    (h : ∀ (k : Fin hi) (o : Out), f k () o = .ok ((), { o with cout := o.cout ++ g k })) (o : Out) :
    forUp 0 hi () f o = .ok ((), { o with cout := o.cout ++ (List.ofFn g).flatten }) := by
  unfold forUp
  rw [Nat.sub_zero]
  induction hi with
  | zero => simp only [List.range'_zero, List.foldlM_nil, List.ofFn_zero, List.flatten_nil, List.append_nil]; rfl
  | succ hi ih =>
    rw [List.range'_concat, List.foldlM_append, List.ofFn_succ_last, List.flatten_append, ← List.append_assoc]
    have e := ih (fun k => g k.castSucc) (fun k o => h k.castSucc o)
    show ((List.range' 0 hi).foldlM (fun s i => f i s) () o).bind _ = _
    rw [e]
    show (List.foldlM (fun s i => f i s) () [0 + 1 * hi] _) = _
    rw [List.foldlM_cons, Nat.zero_add, Nat.one_mul]
    have e2 := h (Fin.last hi) { o with cout := o.cout ++ (List.ofFn fun k : Fin hi => g k.castSucc).flatten }
    show (f hi () _).bind _ = _
    rw [Fin.val_last] at e2
    rw [e2]
    simp only [List.flatten_cons, List.flatten_nil, List.append_nil]
    rfl

theorem out_bind {x : StateT Out (Except Fault) α} {f : α → StateT Out (Except Fault) β} {o o' : Out} {a : α}
    (h : x o = .ok (a, o')) : (x >>= f) o = f a o' := by
  show (x o).bind _ = _
  rw [h]
  rfl

theorem printMat_run (A : Matrix (Fin n) (Fin n) (ZMod 2)) (o : Out) :
    printMat n ⟨n, n, A⟩ o = .ok ((), { o with cout := o.cout ++ matText A }) := by
  unfold printMat
  refine forUp_out (fun i => (List.ofFn fun j => [if A i j = 1 then '1' else '0', ' ']).flatten ++ ['\n']) ?_ o
  intro i o
  have := forUp_out (hi := n) (f := fun j _ => do
      let b : ZMod 2 ← (fun o => ((⟨n, n, A⟩ : MatGF2).get i j).map fun a => (a, o) : StateT Out (Except Fault) (ZMod 2))
      toCout (if b = 1 then "1" else "0")
      toCout " ") (fun j => [if A i j = 1 then '1' else '0', ' ']) ?_ o
  · refine (out_bind this).trans ?_
    show Except.ok _ = _
    simp only [List.append_assoc]
    rfl
  · intro j o
    have e : (⟨n, n, A⟩ : MatGF2).get i j = .ok (A i j) := by
      unfold MatGF2.get
      rw [dif_pos ⟨i.2, j.2⟩]
    show ((((⟨n, n, A⟩ : MatGF2).get i j).map fun a => (a, o))).bind _ = _
    rw [e]
    show Except.ok _ = _
    by_cases h : A i j = 1
    · rw [if_pos h, if_pos h]
      simp only [List.append_assoc]
      rfl
    · rw [if_neg h, if_neg h]
      simp only [List.append_assoc]
      rfl

theorem print_start (A : Matrix (Fin n) (Fin n) (ZMod 2)) (I : MatGF2) (o : Out) :
    RandMat.print ⟨n, ⟨n, n, A⟩, I⟩ o = (if A.det = 0 then (pure () : StateT Out (Except Fault) Unit) else printMat n I)
      { o with cout := o.cout ++ "Dim=".toList ++ (toString n).toList ++ ['\n'] ++ matText A ++ ['\n'] } := by
  unfold RandMat.print
  show (printMat n ⟨n, n, A⟩ _).bind _ = _
  rw [printMat_run]
  show ((determinant ⟨n, n, A⟩).map _).bind _ = _
  rw [determinant_run]
  rfl

theorem printMat_empty (hn : 1 ≤ n) (o : Out) : printMat n default o = .error .oob := by
  obtain ⟨m, rfl⟩ : ∃ m, n = m + 1 := ⟨n - 1, by omega⟩
  unfold printMat forUp
  rw [Nat.sub_zero, List.range'_succ, List.foldlM_cons]
  rfl

/-- Nothing is written to the stream. -/
def Quiet (x : StateT Out (Except Fault) α) : Prop := ∀ o a o', x o = .ok (a, o') → o'.stream = o.stream

theorem Quiet.pure (a : α) : Quiet (Pure.pure a : StateT Out (Except Fault) α) := by
  intro o b o' h
  cases h
  rfl

theorem Quiet.bind {x : StateT Out (Except Fault) α} {f : α → StateT Out (Except Fault) β} (h : Quiet x) (hf : ∀ a, Quiet (f a)) :
    Quiet (x >>= f) := by
  intro o b o' e
  change (x o).bind (fun p => f p.1 p.2) = _ at e
  cases e1 : x o with
  | error _ => rw [e1] at e; cases e
  | ok p =>
    rw [e1] at e
    exact (hf p.1 p.2 b o' e).trans (h o p.1 p.2 e1)

theorem Quiet.toCout (t : String) : Quiet (toCout t) := by
  intro o a o' h
  cases h
  rfl

theorem Quiet.get (x : C α) : Quiet (fun o => x.map fun a => (a, o)) := by
  intro o a o' h
  cases x with
  | error _ => cases h
  | ok b => cases h; rfl

theorem Quiet.foldlM {f : Nat → Unit → StateT Out (Except Fault) Unit} (h : ∀ i, Quiet (f i ())) :
    ∀ l : List Nat, Quiet (l.foldlM (fun t i => f i t) ())
  | [] => Quiet.pure ()
  | a :: l => by
    rw [List.foldlM_cons]
    exact (h a).bind fun _ => Quiet.foldlM h l

theorem printMat_quiet (d : Nat) (x : MatGF2) : Quiet (printMat d x) :=
  Quiet.foldlM (fun _ => (Quiet.foldlM (fun _ => (Quiet.get _).bind fun _ => (Quiet.toCout _).bind fun _ => Quiet.toCout _) _).bind
    fun _ => Quiet.toCout _) _

theorem print_stream (x : RandMat) (o o' : Out) (h : RandMat.print x o = .ok ((), o')) : o'.stream = o.stream := by
  refine Quiet.bind (Quiet.toCout _) (fun _ => Quiet.bind (Quiet.toCout _) fun _ => Quiet.bind (Quiet.toCout _) fun _ =>
    Quiet.bind (printMat_quiet _ _) fun _ => Quiet.bind (Quiet.toCout _) fun _ => Quiet.bind (Quiet.get _) fun d => ?_) o () o' h
  by_cases h : d = 0
  · rw [if_pos h]; exact Quiet.pure ()
  · rw [if_neg h]; exact printMat_quiet _ _

theorem init_false_can (stale : Nat → Nat → ZMod 2) {fuel : Nat} (hf : 1 ≤ fuel) (self : RandMat)
    {A : Matrix (Fin n) (Fin n) (ZMod 2)} (h : NoUnitRow A) :
    Can (RandMat.init stale fuel self n false) fun r => r = ⟨n, ⟨n, n, A⟩, self.invMat⟩ := by
  unfold RandMat.init
  obtain ⟨D, e⟩ := SetDims_eq stale default n n
  simp only [e]
  refine (fillMat_can hf D A h).bind ?_
  rintro _ rfl
  exact Can.pure rfl

end WB.ntl
