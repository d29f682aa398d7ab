import Verif.Proof.MatGf2Init

/-!
# Entering, drawing, comparing, exporting and printing matrices (helper lemmas)
-/
namespace WB.m4ri

variable {s : Heap} {lib : M4ri}

/-! ## Loops that fail -/

theorem foldlM_fail {σ : Type} {f : Nat → σ → MM σ} {e : MFault} (P : Nat → σ → Heap → Prop) :
    ∀ (len lo k : Nat) (x : σ) (s : Heap), P lo x s → lo ≤ k → k < lo + len →
    (∀ i x s, lo ≤ i → i < k → P i x s → Run (f i x) s (P (i + 1))) →
    (∀ x s, P k x s → f k x s = .error e) →
    ((List.range' lo len).foldlM (fun x i => f i x) x) s = .error e := by
  intro len
  induction len with
  | zero => intro lo k x s _ h1 h2; omega
  | succ len ih =>
    intro lo k x s h0 h1 h2 hs hk
    simp only [List.range'_succ, List.foldlM_cons]
    by_cases h : lo = k
    · subst h
      exact MM_bind_err (hk x s h0)
    · obtain ⟨x', s', e', hp⟩ := hs lo x s (Nat.le_refl _) (by omega) h0
      rw [MM_bind e']
      exact ih (lo + 1) k x' s' hp (by omega) (by omega) (fun i x s h1 h2 hp => hs i x s (by omega) h2 hp) hk

/-- A loop whose `k`-th pass fails. -/
theorem forUp_fail {σ : Type} {f : Nat → σ → MM σ} {e : MFault} (P : Nat → σ → Heap → Prop) {lo hi k : Nat} {x : σ}
    (h0 : P lo x s) (h1 : lo ≤ k) (h2 : k < hi)
    (hs : ∀ i x s, lo ≤ i → i < k → P i x s → Run (f i x) s (P (i + 1)))
    (hk : ∀ x s, P k x s → f k x s = .error e) : forUp lo hi x f s = .error e :=
  foldlM_fail P (hi - lo) lo k x s h0 h1 (by omega) hs hk

/-- `MatGf2Diag` with a destination that is one of the operands. -/
theorem diag_alias {a b dst n₁ n₂ : Nat} {A : Matrix (Fin n₁) (Fin n₁) (ZMod 2)} {B : Matrix (Fin n₂) (Fin n₂) (ZMod 2)}
    (hs : s.Ok) (ha : Points s a A) (hb : Points s b B) (h1 : 0 < n₁) (h2 : 0 < n₂) (hd : dst = a ∨ dst = b) :
    MatGf2Diag a b dst s = .error .freed := by
  obtain ⟨ma, ha, hA⟩ := ha
  obtain ⟨mb, hb, hB⟩ := hb
  have ha0 := hs.ne_zero ha
  have hb0 := hs.ne_zero hb
  have hal := hs.lt ha
  have hbl := hs.lt hb
  have hcan : CanFree s dst := by
    rcases hd with rfl | rfl
    · exact .inr ⟨_, ha⟩
    · exact .inr ⟨_, hb⟩
  have e1 : ReAllocatedMatGf2 (n₁ + n₂) (n₁ + n₂) dst s
      = .ok (s.next, push (setObj s dst none) ⟨n₁ + n₂, n₁ + n₂, fun _ _ => false⟩) := by
    rw [ReAllocatedMatGf2, MM_bind (free_any hs hcan)]; rfl
  have hs' : (push (setObj s dst none) ⟨n₁ + n₂, n₁ + n₂, fun _ _ => false⟩).Ok := (hs.setNone dst).push _
  have hd' : (push (setObj s dst none) ⟨n₁ + n₂, n₁ + n₂, fun _ _ => false⟩).obj s.next
      = some ⟨n₁ + n₂, n₁ + n₂, fun _ _ => false⟩ := push_self _ _
  have hnone : (push (setObj s dst none) ⟨n₁ + n₂, n₁ + n₂, fun _ _ => false⟩).obj dst = none := by
    rw [push_ne _ _ (by rcases hd with rfl | rfl <;> simp <;> omega)]
    simp [setObj]
  have hget : ∀ {s' : Heap} {i j : Nat}, s'.obj dst = none → dst ≠ 0 → MatGf2Get dst i j s' = .error .freed := by
    intro s' i j h h0
    rw [MatGf2Get, mzd_read_bit, MM_bind_err (deref_freed h0 h)]
  rw [MatGf2Diag, MM_bind (deref_run hs ha), MM_bind (deref_run hs hb)]
  simp only [hA.ncols, hB.ncols]
  rw [MM_bind e1]
  by_cases had : dst = a
  · subst had
    refine MM_bind_err ?_
    refine forUp_fail (k := 0) (fun _ _ s' => s' = push (setObj s dst none) ⟨n₁ + n₂, n₁ + n₂, fun _ _ => false⟩)
      rfl (Nat.le_refl _) h1 (fun i _ _ _ h => absurd h (Nat.not_lt_zero i)) ?_
    intro _ s' hs''
    refine MM_bind_err ?_
    refine forUp_fail (k := 0) (fun _ _ s' => s' = push (setObj s dst none) ⟨n₁ + n₂, n₁ + n₂, fun _ _ => false⟩)
      hs'' (Nat.le_refl _) h1 (fun i _ _ _ h => absurd h (Nat.not_lt_zero i)) ?_
    intro _ s' hs''
    refine MM_bind_err (hget ?_ ha0)
    rw [hs'']; exact hnone
  · obtain rfl : dst = b := by tauto
    obtain ⟨_, s₁, e2, hw⟩ := diagTop (n₂ := n₂) (a := a) (d := s.next) hs' (push_old (hs.setNone dst) _
      (by rw [setObj_ne _ _ (Ne.symm had)]; exact ha)) hA hd' (by omega) rfl rfl
    rw [MM_bind e2]
    refine MM_bind_err ?_
    refine forUp_fail (k := 0) (fun _ _ s' => s' = s₁) rfl (Nat.le_refl _) h2
      (fun i _ _ _ h => absurd h (Nat.not_lt_zero i)) ?_
    intro _ s' hs''
    subst hs''
    obtain ⟨_, s₂, e3, hw₂⟩ := writeRow (i := n₁ + 0) (off := 0) (len := n₁) hs' hd' (by simp; omega) (by simp)
      (fun _ => 0) (fun j _ => MatGf2Set s.next (n₁ + 0) j 0) hw (fun j s'' _ _ => by rw [Nat.zero_add])
    rw [MM_bind e3]
    refine forUp_fail (k := 0) (fun _ _ s' => s' = s₂) rfl (Nat.le_refl _) h2
      (fun i _ _ _ h => absurd h (Nat.not_lt_zero i)) ?_
    intro _ s' hs''
    refine MM_bind_err (hget ?_ hb0)
    rw [hs'']
    obtain ⟨m', rfl, -⟩ := hw₂
    rw [setObj_ne _ _ (by omega)]
    exact hnone

/-! ## Entering -/

theorem valueRow {p : Nat} {m : Mzd} {data : List Int} (hs : s.Ok) (hp : s.obj p = some m) {i : Nat} (hi : i < m.nrows)
    (hl : i < m.nrows → ∀ j, j < m.ncols → m.nrows * i + j < data.length) {g : Nat → Nat → Bool} {s₀ : Heap}
    (h0 : Wrote s p m g s₀) :
    Run (forUp 0 m.ncols () fun j _ =>
      match data[m.nrows * i + j]? with
      | none => fail (.c .oob)
      | some v => MatGf2Set p i j v) s₀ fun _ s' =>
      Wrote s p m (fun r c => if r = i then setBit (data.getD (m.nrows * i + c) 0) c else g r c) s' := by
  refine (writeRow (i := i) (off := 0) (len := m.ncols) hs hp hi (by omega)
    (fun j => data.getD (m.nrows * i + j) 0) _ h0 ?_).mono ?_
  · intro j s' hj _
    rw [List.getElem?_eq_getElem (hl hi j hj), Nat.zero_add]
    simp [List.getD, List.getElem?_eq_getElem (hl hi j hj)]
  · intro _ s' hw
    refine hw.congr ?_
    intro r c _ hc
    by_cases h : r = i
    · rw [if_pos ⟨h, by omega, by omega⟩, if_pos h]; simp
    · rw [if_neg (by omega), if_neg h]

/-- `InitMatGf2ByValueArray` when all accesses are inside the array. -/
theorem valueArray_run {p : Nat} {m : Mzd} {data : List Int} (hs : s.Ok) (hp : s.obj p = some m)
    (hl : ∀ i j, i < m.nrows → j < m.ncols → m.nrows * i + j < data.length) :
    Run (InitMatGf2ByValueArray data p) s fun _ s' =>
      Wrote s p m (fun i j => setBit (data.getD (m.nrows * i + j) 0) j) s' := by
  rw [InitMatGf2ByValueArray]
  refine Run.step (deref_run hs hp) ?_
  refine Run.forUp (fun i _ s' => Wrote s p m
    (fun r c => if r < i then setBit (data.getD (m.nrows * r + c) 0) c else m.bit r c) s') (Nat.zero_le _)
    ((Wrote.refl hp).congr (by intro r c _ _; rw [if_neg (by omega)])) ?_ ?_
  · intro i _ s' _ hi hw
    refine (valueRow hs hp hi (fun hi j hj => hl i j hi hj) hw).mono ?_
    intro _ s'' hw'
    refine hw'.congr ?_
    intro r c _ _
    by_cases h : r = i
    · subst h; rw [if_pos rfl, if_pos (by omega)]
    · rw [if_neg h]
      by_cases h2 : r < i
      · rw [if_pos h2, if_pos (by omega)]
      · rw [if_neg h2, if_neg (by omega)]
  · intro _ s' hw
    refine hw.congr ?_
    intro r c hr _
    rw [if_pos hr]

/-- `InitMatGf2ByValueArray` on an array of `nrows * ncols` numbers for a matrix with more rows than columns. -/
theorem valueArray_oob {p : Nat} {m : Mzd} {data : List Int} (hs : s.Ok) (hp : s.obj p = some m)
    (hd : data.length = m.nrows * m.ncols) (h0 : 0 < m.ncols) (h1 : m.ncols < m.nrows) :
    InitMatGf2ByValueArray data p s = .error (.c .oob) := by
  rw [InitMatGf2ByValueArray, MM_bind (deref_run hs hp)]
  -- the first row all of whose accesses are not inside
  obtain ⟨k, hk1, hk2, hk3⟩ : ∃ k, k < m.nrows ∧ (∀ i, i < k → ∀ j, j < m.ncols → m.nrows * i + j < data.length) ∧
      ∃ j, j < m.ncols ∧ data.length ≤ m.nrows * k + j := by
    have hex : ∃ k, k < m.nrows ∧ ∃ j, j < m.ncols ∧ data.length ≤ m.nrows * k + j :=
      ⟨m.ncols, h1, 0, h0, by omega⟩
    classical
    refine ⟨Nat.find hex, (Nat.find_spec hex).1, ?_, (Nat.find_spec hex).2⟩
    intro i hi j hj
    have := Nat.find_min hex hi
    by_contra hc
    exact this ⟨lt_trans hi (Nat.find_spec hex).1, j, hj, by omega⟩
  refine forUp_fail (fun i _ s' => ∃ g, Wrote s p m g s') (k := k) ⟨_, Wrote.refl hp⟩ (Nat.zero_le _) hk1 ?_ ?_
  · rintro i _ s' _ hi ⟨g, hw⟩
    exact (valueRow hs hp (by omega) (fun _ j hj => hk2 i hi j hj) hw).mono fun _ _ h => ⟨_, h⟩
  · rintro _ s' ⟨g, hw⟩
    obtain ⟨l, hl1, hl2, hl3⟩ : ∃ l, l < m.ncols ∧ (∀ j, j < l → m.nrows * k + j < data.length) ∧
        data.length ≤ m.nrows * k + l := by
      classical
      refine ⟨Nat.find hk3, (Nat.find_spec hk3).1, ?_, (Nat.find_spec hk3).2⟩
      intro j hj
      have := Nat.find_min hk3 hj
      by_contra hc
      exact this ⟨lt_trans hj (Nat.find_spec hk3).1, by omega⟩
    refine forUp_fail (fun j _ s' => ∃ g, Wrote s p m g s') (k := l) ⟨_, hw⟩ (Nat.zero_le _) hl1 ?_ ?_
    · rintro j _ s'' _ hj ⟨g, hw⟩
      rw [List.getElem?_eq_getElem (hl2 j hj)]
      exact (hw.set hs hp _ hk1 (by omega)).mono fun _ _ h => ⟨_, h⟩
    · rintro _ s'' _
      rw [List.getElem?_eq_none hl3]
      rfl

/-- `InitMatrixFromBitArray` -/
theorem bitArray_run {p : Nat} {m : Mzd} {data : List (BitVec 64)} (hs : s.Ok) (hp : s.obj p = some m)
    (hl : m.nrows ≤ data.length) :
    Run (InitMatrixFromBitArray data p) s fun _ s' =>
      Wrote s p m (fun i j => (data.getD i 0).getLsbD (m.ncols - 1 - j)) s' := by
  rw [InitMatrixFromBitArray]
  refine Run.step (deref_run hs hp) ?_
  refine Run.forUp (fun i _ s' => Wrote s p m
    (fun r c => if r < i then (data.getD r 0).getLsbD (m.ncols - 1 - c) else m.bit r c) s') (Nat.zero_le _)
    ((Wrote.refl hp).congr (by intro r c _ _; rw [if_neg (by omega)])) ?_ ?_
  · intro i _ s' _ hi hw
    have hi' : i < data.length := by omega
    rw [List.getElem?_eq_getElem hi']
    have hg : data.getD i 0 = data[i] := by simp [List.getD, List.getElem?_eq_getElem hi']
    refine Run.bind (P := fun _ s'' => Wrote s p m
      (fun r c => if r < i + 1 then (data.getD r 0).getLsbD (m.ncols - 1 - c) else m.bit r c) s'') ?_
      (fun _ _ h => Run.pure h)
    refine Run.forDown (fun j t s'' => t = data[i] >>> (m.ncols - j) ∧ Wrote s p m
      (fun r c => if r < i ∨ (r = i ∧ j ≤ c) then (data.getD r 0).getLsbD (m.ncols - 1 - c) else m.bit r c) s'')
      (Nat.zero_le _) ⟨by simp, ?_⟩ ?_ ?_
    · refine hw.congr ?_
      intro r c _ hc
      by_cases h : r < i
      · rw [if_pos h, if_pos (by omega)]
      · rw [if_neg h, if_neg (by omega)]
    · rintro j t s'' - hj ⟨rfl, hw'⟩
      refine Run.bind (hw'.set hs hp _ hi hj) ?_
      intro _ s3 hw3
      refine Run.pure ⟨?_, ?_⟩
      · rw [← BitVec.shiftRight_add]; congr 1; omega
      · refine hw3.congr ?_
        intro r c _ _
        by_cases h : r = i ∧ c = j
        · obtain ⟨rfl, rfl⟩ := h
          rw [if_pos ⟨rfl, rfl⟩, setBit_bool, if_pos (by omega), hg, BitVec.getLsbD_ushiftRight]
          congr 1; omega
        · rw [if_neg h]
          by_cases h2 : r < i ∨ (r = i ∧ j + 1 ≤ c)
          · rw [if_pos h2, if_pos (by omega)]
          · rw [if_neg h2, if_neg (by omega)]
    · rintro t s'' ⟨-, hw'⟩
      refine hw'.congr ?_
      intro r c _ _
      by_cases h : r < i + 1
      · rw [if_pos h, if_pos (by omega)]
      · rw [if_neg h, if_neg (by omega)]
  · intro _ s' hw
    refine hw.congr ?_
    intro r c hr _
    rw [if_pos hr]

/-! ## Random matrices -/

theorem randomize_run {p : Nat} {m : Mzd} (hs : s.Ok) (hp : s.obj p = some m) (hc : 0 < m.ncols) :
    RandomMatGf2 lib p s
      = .ok ((), { setObj s p (some { m with bit := lib.rnd s.rand }) with rand := s.rand + 1 }) := by
  rw [RandomMatGf2, mzd_randomize, MM_bind (deref_run hs hp), if_neg (by omega)]
  rfl

/-- The heap with a new `r` × `c` matrix of the bits drawn last, after `k` calls of `mzd_randomize`. -/
def drawn (lib : M4ri) (s : Heap) (r c k : Nat) : Heap :=
  { push s ⟨r, c, lib.rnd (s.rand + k)⟩ with rand := s.rand + k + 1 }

theorem genRandom_run (hs : s.Ok) {r c : Nat} (hc : 0 < c) :
    GenRandomMatGf2 lib r c s = .ok (s.next, drawn lib s r c 0) := by
  have e1 : GenMatGf2 r c s = .ok (s.next, push s ⟨r, c, fun _ _ => false⟩) := rfl
  rw [GenRandomMatGf2, MM_bind e1, MM_bind (randomize_run (hs.push _) (push_self _ _) hc), setObj_push_some]
  rfl

theorem Heap.Ok.rand (h : s.Ok) (k : Nat) : ({ s with rand := k } : Heap).Ok := ⟨h.pos, h.null, h.fresh⟩

theorem drawn_skip_ok (hs : s.Ok) (r c k l : Nat) :
    ({ drawn lib s r c k with next := s.next + 1 + l } : Heap).Ok :=
  ((hs.push ⟨r, c, lib.rnd (s.rand + k)⟩).rand (s.rand + k + 1)).skip l

theorem redraw_run (hs : s.Ok) {r c k l : Nat} (hc : 0 < c) :
    RandomMatGf2 lib s.next { drawn lib s r c k with next := s.next + 1 + l }
      = .ok ((), { drawn lib s r c (k + 1) with next := s.next + 1 + l }) := by
  have hp : ({ drawn lib s r c k with next := s.next + 1 + l } : Heap).obj s.next
      = some ⟨r, c, lib.rnd (s.rand + k)⟩ := by simp [drawn, push]
  rw [randomize_run (drawn_skip_ok hs r c k l) hp hc]
  simp only [drawn, push, setObj, Function.update_idem]
  rfl

open Classical in
/-- The loop of `GenInvertibleMatGf2` from the `k`-th draw on. -/
theorem drawInvertible_run (hs : s.Ok) {n : Nat} (hn : 0 < n) : ∀ (fuel k : Nat),
    (∀ t, k ≤ t → t < k + fuel → ¬ IsUnit (bitMat n n (lib.rnd (s.rand + t)))) →
    drawInvertible lib s.next fuel { drawn lib s n n k with next := s.next + 1 + k } = .error (.c .diverge) := by
  intro fuel
  induction fuel with
  | zero => intro k _; rfl
  | succ fuel ih =>
    intro k h
    have hp : Points ({ drawn lib s n n k with next := s.next + 1 + k } : Heap) s.next
        (bitMat n n (lib.rnd (s.rand + k))) := ⟨⟨n, n, lib.rnd (s.rand + k)⟩, by simp [drawn, push], rfl, rfl, fun _ _ => rfl⟩
    have e := isInvertible_run (drawn_skip_ok hs n n k k) hn hp
    rw [if_neg (h k (Nat.le_refl _) (by omega))] at e
    rw [drawInvertible, MM_bind e, if_pos rfl]
    have e2 := redraw_run (lib := lib) hs (r := n) (k := k) (l := k + 1) hn
    have hx : ({ drawn lib s n n k with next := s.next + 1 + k + 1 } : Heap)
        = { drawn lib s n n k with next := s.next + 1 + (k + 1) } := rfl
    rw [hx, MM_bind e2]
    exact ih (k + 1) (fun t h1 h2 => h t (by omega) (by omega))

open Classical in
theorem drawInvertible_found (hs : s.Ok) {n : Nat} (hn : 0 < n) : ∀ (d fuel k : Nat), d < fuel →
    (∀ t, k ≤ t → t < k + d → ¬ IsUnit (bitMat n n (lib.rnd (s.rand + t)))) →
    IsUnit (bitMat n n (lib.rnd (s.rand + (k + d)))) →
    drawInvertible lib s.next fuel { drawn lib s n n k with next := s.next + 1 + k }
      = .ok ((), { drawn lib s n n (k + d) with next := s.next + 2 + (k + d) }) := by
  intro d
  induction d with
  | zero =>
    intro fuel k hf h hu
    obtain ⟨fuel, rfl⟩ : ∃ f, fuel = f + 1 := ⟨fuel - 1, by omega⟩
    have hp : Points ({ drawn lib s n n k with next := s.next + 1 + k } : Heap) s.next
        (bitMat n n (lib.rnd (s.rand + k))) := ⟨⟨n, n, lib.rnd (s.rand + k)⟩, by simp [drawn, push], rfl, rfl, fun _ _ => rfl⟩
    have e := isInvertible_run (drawn_skip_ok hs n n k k) hn hp
    rw [if_pos (by simpa using hu)] at e
    rw [drawInvertible, MM_bind e, if_neg (by decide)]
    show Except.ok _ = _
    congr 2
    show ({ drawn lib s n n k with next := s.next + 1 + k + 1 } : Heap) = _
    rw [show s.next + 1 + k + 1 = s.next + 2 + (k + 0) by omega]
    rfl
  | succ d ih =>
    intro fuel k hf h hu
    obtain ⟨fuel, rfl⟩ : ∃ f, fuel = f + 1 := ⟨fuel - 1, by omega⟩
    have hp : Points ({ drawn lib s n n k with next := s.next + 1 + k } : Heap) s.next
        (bitMat n n (lib.rnd (s.rand + k))) := ⟨⟨n, n, lib.rnd (s.rand + k)⟩, by simp [drawn, push], rfl, rfl, fun _ _ => rfl⟩
    have e := isInvertible_run (drawn_skip_ok hs n n k k) hn hp
    rw [if_neg (h k (Nat.le_refl _) (by omega))] at e
    rw [drawInvertible, MM_bind e, if_pos rfl]
    have e2 := redraw_run (lib := lib) hs (r := n) (k := k) (l := k + 1) hn
    have hx : ({ drawn lib s n n k with next := s.next + 1 + k + 1 } : Heap)
        = { drawn lib s n n k with next := s.next + 1 + (k + 1) } := rfl
    rw [hx, MM_bind e2]
    rw [ih fuel (k + 1) (by omega) (fun t h1 h2 => h t (by omega) (by omega))
      (by rw [show k + 1 + d = k + (d + 1) by omega]; exact hu), show k + 1 + d = k + (d + 1) by omega]

theorem drawRect_run {p : Nat} : ∀ (fuel : Nat) (s : Heap) (m : Mzd), s.Ok → s.obj p = some m → m.nrows ≠ m.ncols →
    0 < m.ncols → drawInvertible lib p fuel s = .error (.c .diverge) := by
  intro fuel
  induction fuel with
  | zero => intros; rfl
  | succ fuel ih =>
    intro s m hs hp h hc
    rw [drawInvertible, MM_bind (isInvertible_rect hs hp h), if_pos rfl, MM_bind (randomize_run hs hp hc)]
    refine ih _ { m with bit := lib.rnd s.rand } ((hs.setSome hp).rand _) ?_ h hc
    show (setObj s p _).obj p = _
    rw [setObj_self]

/-! ## Export and import -/

theorem word32_bytes32 (e : Endian) (x : BitVec 32) :
    ∃ b0 b1 b2 b3, bytes32 e x = [b0, b1, b2, b3] ∧ word32 e b0 b1 b2 b3 = x := by
  cases e
  · refine ⟨_, _, _, _, rfl, ?_⟩
    simp only [word32]
    apply BitVec.eq_of_getLsbD_eq
    intro i hi
    simp only [BitVec.getLsbD_append, BitVec.getLsbD_extractLsb']
    by_cases h1 : i < 8
    · simp [h1]
    · by_cases h2 : i < 16
      · simp [h1, show i - 8 < 8 by omega, show 8 + (i - 8) = i by omega]
      · by_cases h3 : i < 24
        · simp [h1, show ¬ i - 8 < 8 by omega, show i - 8 - 8 < 8 by omega, show 16 + (i - 8 - 8) = i by omega]
        · simp [h1, show ¬ i - 8 < 8 by omega, show ¬ i - 8 - 8 < 8 by omega, show i - 8 - 8 - 8 < 8 by omega,
            show 24 + (i - 8 - 8 - 8) = i by omega]
  · refine ⟨_, _, _, _, rfl, ?_⟩
    simp only [word32]
    apply BitVec.eq_of_getLsbD_eq
    intro i hi
    simp only [BitVec.getLsbD_append, BitVec.getLsbD_extractLsb']
    by_cases h1 : i < 8
    · simp [h1]
    · by_cases h2 : i < 16
      · simp [h1, show i - 8 < 8 by omega, show 8 + (i - 8) = i by omega]
      · by_cases h3 : i < 24
        · simp [h1, show ¬ i - 8 < 8 by omega, show i - 8 - 8 < 8 by omega, show 16 + (i - 8 - 8) = i by omega]
        · simp [h1, show ¬ i - 8 < 8 by omega, show ¬ i - 8 - 8 < 8 by omega, show i - 8 - 8 - 8 < 8 by omega,
            show 24 + (i - 8 - 8 - 8) = i by omega]

/-- The characters of the bits of a matrix, row by row. -/
def digits (m : Mzd) (r : Nat) : List (BitVec 8) :=
  ((List.range r).map fun i => (List.range m.ncols).map fun j => if m.bit i j then 49#8 else 48#8).flatten

theorem digits_succ (m : Mzd) (r : Nat) :
    digits m (r + 1) = digits m r ++ (List.range m.ncols).map fun j => if m.bit r j then 49#8 else 48#8 := by
  simp [digits, List.range_succ]

theorem digits_length (m : Mzd) (r : Nat) : (digits m r).length = r * m.ncols := by
  induction r with
  | zero => simp [digits]
  | succ r ih => rw [digits_succ]; simp [ih, Nat.succ_mul]

theorem digits_get (m : Mzd) {r i j : Nat} (hi : i < r) (hj : j < m.ncols) :
    (digits m r)[i * m.ncols + j]? = some (if m.bit i j then 49#8 else 48#8) := by
  induction r with
  | zero => omega
  | succ r ih =>
    rw [digits_succ]
    by_cases h : i < r
    · rw [List.getElem?_append_left]
      · exact ih h
      · rw [digits_length]
        calc i * m.ncols + j < i * m.ncols + m.ncols := by omega
          _ = (i + 1) * m.ncols := by rw [Nat.succ_mul]
          _ ≤ r * m.ncols := Nat.mul_le_mul_right _ h
    · have : i = r := by omega
      subst this
      rw [List.getElem?_append_right (by rw [digits_length]; omega), digits_length,
        show i * m.ncols + j - i * m.ncols = j by omega]
      simp [hj]

theorem export_run {p : Nat} {m : Mzd} (hs : s.Ok) (hp : s.obj p = some m) (e : Endian) :
    ExportMatGf2ToStr e p s = .ok (bytes32 e (BitVec.ofNat 32 m.nrows) ++ bytes32 e (BitVec.ofNat 32 m.ncols)
      ++ digits m m.nrows, s) := by
  rw [ExportMatGf2ToStr, MM_bind (deref_run hs hp)]
  have : Run (forUp 0 m.nrows (bytes32 e (BitVec.ofNat 32 m.nrows) ++ bytes32 e (BitVec.ofNat 32 m.ncols))
      fun i r => forUp 0 m.ncols r fun j r => do
        pure (r ++ [if ← MatGf2Get p i j then 49#8 else 48#8])) s fun r s' => s' = s ∧
      r = bytes32 e (BitVec.ofNat 32 m.nrows) ++ bytes32 e (BitVec.ofNat 32 m.ncols) ++ digits m m.nrows := by
    refine Run.forUp (fun i r s' => s' = s ∧
      r = bytes32 e (BitVec.ofNat 32 m.nrows) ++ bytes32 e (BitVec.ofNat 32 m.ncols) ++ digits m i) (Nat.zero_le _)
      ⟨rfl, by simp [digits]⟩ ?_ (fun _ _ h => h)
    rintro i r s' - hi ⟨hs', rfl⟩
    rw [hs']
    refine Run.forUp (fun j r s' => s' = s ∧
      r = bytes32 e (BitVec.ofNat 32 m.nrows) ++ bytes32 e (BitVec.ofNat 32 m.ncols) ++ digits m i
        ++ (List.range j).map fun j => if m.bit i j then 49#8 else 48#8) (Nat.zero_le _) ⟨rfl, by simp⟩ ?_ ?_
    · rintro j r s'' - hj ⟨hs'', rfl⟩
      rw [hs'']
      refine Run.step (get_run hs hp hi hj) ?_
      refine Run.pure ⟨rfl, ?_⟩
      rw [List.range_succ]
      simp
    · rintro r s'' ⟨hs'', rfl⟩
      refine ⟨hs'', ?_⟩
      rw [digits_succ]
      simp
  obtain ⟨r, s', e', rfl, rfl⟩ := this
  exact e'

theorem import_run (hs : s.Ok) (m : Mzd) (tail : List (BitVec 8)) :
    ∃ m', mzd_from_str m.nrows m.ncols (digits m m.nrows ++ tail) s = .ok (s.next, push s m') ∧
      m'.nrows = m.nrows ∧ m'.ncols = m.ncols ∧ ∀ i j, i < m.nrows → j < m.ncols → m'.bit i j = m.bit i j := by
  have e1 : mzd_init m.nrows m.ncols s = .ok (s.next, push s ⟨m.nrows, m.ncols, fun _ _ => false⟩) := rfl
  have hs' := hs.push ⟨m.nrows, m.ncols, fun _ _ => false⟩
  let m₀ : Mzd := ⟨m.nrows, m.ncols, fun _ _ => false⟩
  have hp : (push s m₀).obj s.next = some m₀ := push_self _ _
  have : Run (mzd_from_str m.nrows m.ncols (digits m m.nrows ++ tail)) s fun x s' => x = s.next ∧
      Wrote (push s m₀) s.next m₀ m.bit s' := by
    rw [mzd_from_str]
    refine Run.step e1 ?_
    refine Run.bind (P := fun _ s' => Wrote (push s m₀) s.next m₀ m.bit s') ?_ (fun _ _ h => Run.pure ⟨rfl, h⟩)
    refine Run.forUp (fun i idx s' => idx = i * m.ncols ∧
      Wrote (push s m₀) s.next m₀ (fun r c => if r < i then m.bit r c else false) s') (Nat.zero_le _)
      ⟨by simp, (Wrote.refl hp).congr (by intro r c _ _; rw [if_neg (by omega)])⟩ ?_ ?_
    · rintro i _ s' - hi ⟨rfl, hw⟩
      refine Run.forUp (fun j idx s'' => idx = i * m.ncols + j ∧
        Wrote (push s m₀) s.next m₀ (fun r c => if r < i ∨ (r = i ∧ c < j) then m.bit r c else false) s'')
        (Nat.zero_le _) ⟨by simp, hw.congr (by intro r c _ _; simp)⟩ ?_ ?_
      · rintro j _ s'' - hj ⟨rfl, hw'⟩
        have hlen : i * m.ncols + j < (digits m m.nrows).length := by
          rw [digits_length]
          calc i * m.ncols + j < i * m.ncols + m.ncols := by omega
            _ = (i + 1) * m.ncols := by rw [Nat.succ_mul]
            _ ≤ m.nrows * m.ncols := Nat.mul_le_mul_right _ hi
        rw [List.getElem?_append_left hlen, digits_get m hi hj]
        have hset : mzd_write_bit s.next i j (if (if m.bit i j then 49#8 else 48#8) = 49#8 then 1 else 0)
            = MatGf2Set s.next i j (if m.bit i j then 1 else 0) := by
          cases m.bit i j <;> rfl
        show Run (do
          mzd_write_bit s.next i j (if (if m.bit i j then 49#8 else 48#8) = 49#8 then 1 else 0)
          pure (i * m.ncols + j + 1)) s'' _
        rw [hset]
        refine Run.bind (hw'.set hs' hp _ (show i < m₀.nrows from hi) hj) ?_
        intro _ s3 hw3
        refine Run.pure ⟨by omega, hw3.congr ?_⟩
        intro r c _ _
        by_cases h : r = i ∧ c = j
        · obtain ⟨rfl, rfl⟩ := h
          rw [if_pos ⟨rfl, rfl⟩, setBit_bool, if_pos (by omega)]
        · rw [if_neg h]
          by_cases h2 : r < i ∨ (r = i ∧ c < j)
          · rw [if_pos h2, if_pos (by omega)]
          · rw [if_neg h2, if_neg (by omega)]
      · rintro _ s'' ⟨rfl, hw'⟩
        refine ⟨by rw [Nat.succ_mul], hw'.congr ?_⟩
        intro r c _ hc
        have hc : c < m.ncols := hc
        by_cases h : r < i + 1
        · rw [if_pos h, if_pos (by omega)]
        · rw [if_neg h, if_neg (by omega)]
    · rintro _ s' ⟨-, hw⟩
      refine hw.congr ?_
      intro r c hr _
      rw [if_pos hr]
  obtain ⟨x, s', e, rfl, m', rfl, h1, h2, h3⟩ := this
  refine ⟨m', ?_, h1, h2, h3⟩
  rw [e, setObj_push_some]

end WB.m4ri
