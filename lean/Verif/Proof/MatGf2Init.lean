import Verif.Proof.MatGf2Gauss

/-!
# Filling, joining and drawing matrices (helper lemmas)
-/
namespace WB.m4ri

variable {s : Heap} {lib : M4ri}

theorem Wrote.ok {p : Nat} {m : Mzd} {g : Nat → Nat → Bool} {s' : Heap} (hs : s.Ok) (hp : s.obj p = some m)
    (h : Wrote s p m g s') : s'.Ok := by
  obtain ⟨m', rfl, -⟩ := h
  exact hs.setSome hp

theorem Wrote.old {p q : Nat} {m a : Mzd} {g : Nat → Nat → Bool} {s' : Heap} (h : Wrote s p m g s') (hq : q ≠ p)
    (ha : s.obj q = some a) : s'.obj q = some a := by
  obtain ⟨m', rfl, -⟩ := h
  rw [setObj_ne _ _ hq]; exact ha

/-- A loop over the columns of a row, or part of them. -/
theorem writeRow {p : Nat} {m : Mzd} (hs : s.Ok) (hp : s.obj p = some m) {i off len : Nat} (hi : i < m.nrows)
    (hl : off + len ≤ m.ncols) (v : Nat → Int) (f : Nat → Unit → MM Unit) {g : Nat → Nat → Bool} {s₀ : Heap}
    (h0 : Wrote s p m g s₀)
    (hf : ∀ j s', j < len → (∃ g, Wrote s p m g s') → f j () s' = MatGf2Set p i (off + j) (v j) s') :
    Run (forUp 0 len () f) s₀ fun _ s' =>
      Wrote s p m (fun r c => if r = i ∧ off ≤ c ∧ c < off + len then setBit (v (c - off)) c else g r c) s' := by
  refine Run.forUp (fun j _ s' => Wrote s p m
    (fun r c => if r = i ∧ off ≤ c ∧ c < off + j then setBit (v (c - off)) c else g r c) s') (Nat.zero_le _) ?_ ?_ ?_
  · refine h0.congr ?_
    intro r c _ _
    rw [if_neg (by omega)]
  · intro j _ s' _ hj hw
    obtain ⟨a, s'', e, h⟩ := hw.set hs hp (v j) hi (show off + j < m.ncols by omega)
    refine ⟨a, s'', by rw [hf j s' hj ⟨_, hw⟩, e], h.congr ?_⟩
    intro r c _ _
    by_cases h : r = i ∧ c = off + j
    · obtain ⟨rfl, rfl⟩ := h
      rw [if_pos ⟨rfl, rfl⟩, if_pos ⟨rfl, by omega, by omega⟩, show off + j - off = j by omega]
    · rw [if_neg h]
      by_cases h2 : r = i ∧ off ≤ c ∧ c < off + j
      · rw [if_pos h2, if_pos (by omega)]
      · rw [if_neg h2, if_neg (by omega)]
  · intro _ s' h; exact h

/-- The upper rows of `MatGf2Diag`. -/
theorem diagTop {a d n₁ n₂ : Nat} {A : Matrix (Fin n₁) (Fin n₁) (ZMod 2)} {m ma : Mzd} (hs : s.Ok)
    (ha : s.obj a = some ma) (hA : Is ma A) (hd : s.obj d = some m) (had : a ≠ d) (hr : m.nrows = n₁ + n₂)
    (hc : m.ncols = n₁ + n₂) :
    Run (forUp 0 n₁ () fun i _ => do
        forUp 0 n₁ () fun j _ => do MatGf2Set d i j (if ← MatGf2Get a i j then 1 else 0)
        forUp 0 n₂ () fun j _ => MatGf2Set d i (n₁ + j) 0) s fun _ s' =>
      Wrote s d m (fun r c => if r < n₁ then (if c < n₁ then ma.bit r c else false) else m.bit r c) s' := by
  refine Run.forUp (fun i _ s' => Wrote s d m (fun r c => if r < i then (if c < n₁ then ma.bit r c else false)
      else m.bit r c) s') (Nat.zero_le _)
      ((Wrote.refl hd).congr (by intro r c _ _; rw [if_neg (by omega)])) ?_ (fun _ _ h => h)
  intro i _ s' _ hi hw
  refine Run.bind (writeRow (i := i) (off := 0) (len := n₁) hs hd (by omega) (by omega)
    (fun j => if ma.bit i j then 1 else 0) _ hw ?_) ?_
  · rintro j s'' hj ⟨g, hg⟩
    rw [MM_bind (get_run (hg.ok hs hd) (hg.old had ha) (by rw [hA.nrows]; omega) (by rw [hA.ncols]; omega)),
      Nat.zero_add]
  · intro _ s₁ hw₁
    refine (writeRow (i := i) (off := n₁) (len := n₂) hs hd (by omega) (by omega) (fun _ => 0) _ hw₁ ?_).mono ?_
    · intro j s'' _ _; rfl
    · intro _ s₂ hw₂
      refine hw₂.congr ?_
      intro r c hr' hc'
      by_cases h1 : r = i
      · subst h1
        rw [if_pos (show r < r + 1 by omega)]
        by_cases h2 : c < n₁
        · rw [if_neg (by omega), if_pos (by omega), setBit_bool, if_pos h2]; simp
        · rw [if_pos (by omega), setBit_zero, if_neg h2]
      · rw [if_neg (by omega), if_neg (by omega)]
        by_cases h2 : r < i
        · rw [if_pos h2, if_pos (show r < i + 1 by omega)]
        · rw [if_neg h2, if_neg (show ¬ r < i + 1 by omega)]

theorem diagLoops {a b d n₁ n₂ : Nat} {A : Matrix (Fin n₁) (Fin n₁) (ZMod 2)} {B : Matrix (Fin n₂) (Fin n₂) (ZMod 2)}
    {m : Mzd} (hs : s.Ok) (ha : Points s a A) (hb : Points s b B) (hd : s.obj d = some m) (had : a ≠ d) (hbd : b ≠ d)
    (hr : m.nrows = n₁ + n₂) (hc : m.ncols = n₁ + n₂) :
    Run (do
      forUp 0 n₁ () fun i _ => do
        forUp 0 n₁ () fun j _ => do MatGf2Set d i j (if ← MatGf2Get a i j then 1 else 0)
        forUp 0 n₂ () fun j _ => MatGf2Set d i (n₁ + j) 0
      forUp 0 n₂ () fun i _ => do
        forUp 0 n₁ () fun j _ => MatGf2Set d (n₁ + i) j 0
        forUp 0 n₂ () fun j _ => do MatGf2Set d (n₁ + i) (n₁ + j) (if ← MatGf2Get b i j then 1 else 0)
      pure d) s fun x s' => x = d ∧ ∃ m', s' = setObj s d (some m') ∧ Is m' (diagMat A B) := by
  obtain ⟨ma, ha, hA⟩ := ha
  obtain ⟨mb, hb, hB⟩ := hb
  let F : Nat → Nat → Bool := fun r c =>
    if r < n₁ then (if c < n₁ then ma.bit r c else false)
    else (if c < n₁ then false else mb.bit (r - n₁) (c - n₁))
  refine Run.bind (P := fun _ s' => Wrote s d m (fun r c => if r < n₁ then F r c else m.bit r c) s') ?_ ?_
  · refine (diagTop (n₂ := n₂) hs ha hA hd had hr hc).mono ?_
    intro _ s' h
    refine h.congr ?_
    intro r c _ _
    by_cases h : r < n₁
    · simp [F, h]
    · simp [h]
  · intro _ s₁ hw₁
    refine Run.bind (P := fun _ s' => Wrote s d m F s') ?_ ?_
    · refine Run.forUp (fun i _ s' => Wrote s d m (fun r c => if r < n₁ + i then F r c else m.bit r c) s')
        (Nat.zero_le _) hw₁ ?_ ?_
      · intro i _ s' _ hi hw
        refine Run.bind (writeRow (i := n₁ + i) (off := 0) (len := n₁) hs hd (by omega) (by omega)
          (fun _ => 0) _ hw ?_) ?_
        · intro j s'' _ _; rw [Nat.zero_add]
        · intro _ s₁ hw₁
          refine (writeRow (i := n₁ + i) (off := n₁) (len := n₂) hs hd (by omega) (by omega)
            (fun j => if mb.bit i j then 1 else 0) _ hw₁ ?_).mono ?_
          · rintro j s'' hj ⟨g, hg⟩
            rw [MM_bind (get_run (hg.ok hs hd) (hg.old hbd hb) (by rw [hB.nrows]; omega) (by rw [hB.ncols]; omega))]
          · intro _ s₂ hw₂
            refine hw₂.congr ?_
            intro r c hr' hc'
            simp only [F]
            by_cases h1 : r = n₁ + i
            · subst h1
              rw [if_pos (show n₁ + i < n₁ + (i + 1) by omega), if_neg (show ¬ n₁ + i < n₁ by omega)]
              by_cases h2 : c < n₁
              · rw [if_neg (by omega), if_pos (by omega), setBit_zero, if_pos h2]
              · rw [if_pos (by omega), setBit_bool, if_neg h2, Nat.add_sub_cancel_left]
            · rw [if_neg (by omega), if_neg (by omega)]
              by_cases h2 : r < n₁ + i
              · rw [if_pos h2, if_pos (show r < n₁ + (i + 1) by omega)]
              · rw [if_neg h2, if_neg (show ¬ r < n₁ + (i + 1) by omega)]
      · intro _ s' hw
        refine hw.congr ?_
        intro r c hr' _
        rw [if_pos (by omega)]
    · intro _ s₂ hw₂
      refine Run.pure ⟨rfl, ?_⟩
      obtain ⟨m', e, hm'⟩ := hw₂.is hr hc
      refine ⟨m', e, hm'.nrows, hm'.ncols, ?_⟩
      intro i j
      rw [hm'.bit]
      simp only [bitMat, F, diagMat]
      induction i using Fin.addCases with
      | left i =>
        induction j using Fin.addCases with
        | left j => simp [hA.bit]
        | right j => simp [bitF]
      | right i =>
        induction j using Fin.addCases with
        | left j => simp [bitF]
        | right j => simp [hB.bit]

/-- `MatGf2Diag` when the destination is another matrix or a null pointer. -/
theorem diag_run {a b dst n₁ n₂ : Nat} {A : Matrix (Fin n₁) (Fin n₁) (ZMod 2)} {B : Matrix (Fin n₂) (Fin n₂) (ZMod 2)}
    (hs : s.Ok) (ha : Points s a A) (hb : Points s b B) (hd : CanFree s dst) (had : a ≠ dst) (hbd : b ≠ dst) :
    ∃ m, MatGf2Diag a b dst s = .ok (s.next, setObj (push s m) dst none) ∧ Is m (diagMat A B) := by
  have hdn : dst ≠ s.next := by
    rcases hd with rfl | ⟨x, h⟩
    · have := hs.pos; omega
    · have := hs.lt h; omega
  have e1 : ReAllocatedMatGf2 (n₁ + n₂) (n₁ + n₂) dst s
      = .ok (s.next, push (setObj s dst none) ⟨n₁ + n₂, n₁ + n₂, fun _ _ => false⟩) := by
    rw [ReAllocatedMatGf2, MM_bind (free_any hs hd)]; rfl
  have hs' : (push (setObj s dst none) ⟨n₁ + n₂, n₁ + n₂, fun _ _ => false⟩).Ok := (hs.setNone dst).push _
  have keep : ∀ {p r c : Nat} {X : Matrix (Fin r) (Fin c) (ZMod 2)}, p ≠ dst → Points s p X →
      Points (push (setObj s dst none) ⟨n₁ + n₂, n₁ + n₂, fun _ _ => false⟩) p X := by
    rintro p r c X hp ⟨x, hx, hX⟩
    exact ⟨x, push_old (hs.setNone dst) _ (by rw [setObj_ne _ _ hp]; exact hx), hX⟩
  have hna : a ≠ s.next := by obtain ⟨x, hx, -⟩ := ha; have := hs.lt hx; omega
  have hnb : b ≠ s.next := by obtain ⟨x, hx, -⟩ := hb; have := hs.lt hx; omega
  obtain ⟨x, s', e2, rfl, m', rfl, hm'⟩ := diagLoops (d := s.next) hs' (keep had ha) (keep hbd hb) (push_self _ _)
    hna hnb rfl rfl
  refine ⟨m', ?_, hm'⟩
  obtain ⟨ma, ha, hA⟩ := ha
  obtain ⟨mb, hb, hB⟩ := hb
  rw [MatGf2Diag, MM_bind (deref_run hs ha), MM_bind (deref_run hs hb)]
  simp only [hA.ncols, hB.ncols]
  rw [MM_bind e1, e2]
  have : setObj (push (setObj s dst none) ⟨n₁ + n₂, n₁ + n₂, fun _ _ => false⟩) s.next (some m')
      = setObj (push s m') dst none := by
    simp only [setObj, push]
    rw [Function.update_idem, Function.update_comm hdn.symm]
  rw [this]

/-- `GenIndMatrix` -/
theorem ind_run (hs : s.Ok) (n : Nat) :
    ∃ m, GenIndMatrix n s = .ok (s.next, push s m) ∧ Is m (1 : Matrix (Fin n) (Fin n) (ZMod 2)) := by
  have e1 : GenMatGf2 n n s = .ok (s.next, push s ⟨n, n, fun _ _ => false⟩) := rfl
  obtain ⟨_, s', e2, hw⟩ := writeAll (hs.push ⟨n, n, fun _ _ => false⟩) (push_self _ _)
    (fun i j => if i = j then 1 else 0)
    (fun i _ => forUp 0 n () fun j _ => MatGf2Set s.next i j (if i = j then 1 else 0)) (fun i s' _ _ => rfl)
  obtain ⟨m', rfl, hm'⟩ := hw.is rfl rfl
  refine ⟨m', ?_, hm'.nrows, hm'.ncols, ?_⟩
  · rw [GenIndMatrix, MM_bind e1, MM_bind e2, setObj_push_some]; rfl
  · intro i j
    rw [hm'.bit]
    show bitF (setBit (if i.val = j.val then 1 else 0) j) = _
    rw [Matrix.one_apply]
    by_cases h : i = j
    · subst h; rw [if_pos rfl, setBit_one, if_pos rfl]; rfl
    · rw [if_neg (by simpa [Fin.ext_iff] using h), setBit_zero, if_neg h]; rfl

/-- `GenZeroVec` -/
theorem zeroVec_run (hs : s.Ok) (n : Nat) :
    ∃ m, GenZeroVec n s = .ok (s.next, push s m) ∧ Is m (0 : Matrix (Fin n) (Fin 1) (ZMod 2)) := by
  have e1 : GenMatGf2 n 1 s = .ok (s.next, push s ⟨n, 1, fun _ _ => false⟩) := rfl
  obtain ⟨_, s', e2, hw⟩ := writeAll (hs.push ⟨n, 1, fun _ _ => false⟩) (push_self _ _) (fun _ _ => 0)
    (fun i _ => MatGf2Set s.next i 0 0) (fun i s' _ _ => by
      show _ = (do MatGf2Set s.next i 0 0; pure () : MM Unit) s'
      simp)
  obtain ⟨m', rfl, hm'⟩ := hw.is rfl rfl
  refine ⟨m', ?_, hm'.nrows, hm'.ncols, ?_⟩
  · rw [GenZeroVec, MM_bind e1, MM_bind e2, setObj_push_some]; rfl
  · intro i j
    rw [hm'.bit]
    show bitF (setBit 0 j) = _
    rw [setBit_zero]; rfl

end WB.m4ri
