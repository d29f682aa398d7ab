import Verif.Proof.MatGf2IO

/-!
# Comparing and printing matrices, counting allocated matrices (helper lemmas)
-/
namespace WB.m4ri

variable {s : Heap} {lib : M4ri}

/-! ## Comparison -/

/-- The first index of a list at which `g` stops. -/
def scan (g : Nat → Step Int Unit) : List Nat → Step Int Unit
  | [] => .next ()
  | i :: l => match g i with
    | .next _ => scan g l
    | .stop r => .stop r

theorem iterStop_run {f : Nat → Unit → MM (Step Int Unit)} {g : Nat → Step Int Unit} :
    ∀ (l : List Nat) (s : Heap), (∀ i ∈ l, f i () s = .ok (g i, s)) → iterStop f l () s = .ok (scan g l, s) := by
  intro l
  induction l with
  | nil => intros; rfl
  | cons i l ih =>
    intro s h
    rw [iterStop, MM_bind (h i (by simp)), scan]
    cases hg : g i with
    | next u => exact ih s (fun j hj => h j (by simp [hj]))
    | stop r => rfl

/-- The other way round. -/
def flip : Step Int Unit → Step Int Unit
  | .next u => .next u
  | .stop r => .stop (-r)

theorem scan_flip {g g' : Nat → Step Int Unit} (h : ∀ i, g' i = flip (g i)) (l : List Nat) :
    scan g' l = flip (scan g l) := by
  induction l with
  | nil => rfl
  | cons i l ih =>
    rw [scan, scan, h i]
    cases g i with
    | next u => exact ih
    | stop r => rfl

theorem scan_next {g : Nat → Step Int Unit} (l : List Nat) : scan g l = .next () ↔ ∀ i ∈ l, g i = .next () := by
  induction l with
  | nil => simp [scan]
  | cons i l ih =>
    rw [scan]
    cases hg : g i with
    | next u => simp [ih, hg]
    | stop r => simp [hg]

/-- The value of `mzd_cmp`. -/
def stepVal : Step Int Unit → Int
  | .next _ => 0
  | .stop r => r

theorem stepVal_flip (x : Step Int Unit) : stepVal (flip x) = -stepVal x := by cases x <;> simp [stepVal, flip]

/-- Comparison of two words. -/
def cmpWord (a b : BitVec 64) : Step Int Unit := if a < b then .stop (-1) else if b < a then .stop 1 else .next ()

theorem cmpWord_flip (a b : BitVec 64) : cmpWord b a = flip (cmpWord a b) := by
  unfold cmpWord
  by_cases h1 : a < b
  · have h2 : ¬ b < a := BitVec.not_lt.2 (BitVec.le_of_lt h1)
    simp [h1, h2, flip]
  · by_cases h2 : b < a
    · simp [h1, h2, flip]
    · simp [h1, h2, flip]

theorem cmpWord_next (a b : BitVec 64) : cmpWord a b = .next () ↔ a = b := by
  unfold cmpWord
  by_cases h1 : a < b
  · simp only [h1, if_true, reduceCtorEq, false_iff]
    rintro rfl; exact absurd h1 (BitVec.lt_irrefl a)
  · by_cases h2 : b < a
    · simp only [h1, h2, if_true, if_false, reduceCtorEq, false_iff]
      rintro rfl; exact absurd h2 (BitVec.lt_irrefl a)
    · simp only [h1, h2, if_false, true_iff]
      exact BitVec.le_antisymm (BitVec.not_lt.1 h2) (BitVec.not_lt.1 h1)

theorem cmpWord_val (a b : BitVec 64) (r : Int) (h : cmpWord a b = .stop r) : r = 1 ∨ r = -1 := by
  unfold cmpWord at h
  split at h
  · cases h; exact .inr rfl
  · split at h
    · cases h; exact .inl rfl
    · cases h

theorem scan_val {g : Nat → Step Int Unit} (h : ∀ i r, g i = .stop r → r = 1 ∨ r = -1) (l : List Nat) (r : Int)
    (hr : scan g l = .stop r) : r = 1 ∨ r = -1 := by
  induction l with
  | nil => cases hr
  | cons i l ih =>
    rw [scan] at hr
    cases hg : g i with
    | next u => rw [hg] at hr; exact ih hr
    | stop x => rw [hg] at hr; cases hr; exact h i _ hg

theorem iunfoldr_bit {w : Nat} (f : Fin w → Bool) (k : Nat) (hk : k < w) :
    (BitVec.iunfoldr (fun b (_ : Unit) => ((), f b)) () |>.2).getLsbD k = f ⟨k, hk⟩ :=
  BitVec.iunfoldr_getLsbD (fun _ => ()) ⟨k, hk⟩ (fun _ => rfl)

theorem word_bit (m : Mzd) (i k b : Nat) (hb : b < 64) :
    (m.word i k).getLsbD b = (decide (64 * k + b < m.ncols) && m.bit i (64 * k + b)) :=
  iunfoldr_bit (fun b : Fin 64 => decide (64 * k + b.val < m.ncols) && m.bit i (64 * k + b.val)) b hb

theorem words_eq {ma mb : Mzd} (hc : ma.ncols = mb.ncols) (i : Nat) :
    (∀ j, j < (ma.ncols + 63) / 64 → ma.word i j = mb.word i j) ↔ ∀ c, c < ma.ncols → ma.bit i c = mb.bit i c := by
  constructor
  · intro h c hcl
    have h1 := congrArg (fun x => x.getLsbD (c % 64)) (h (c / 64) (by omega))
    simp only [word_bit _ _ _ _ (Nat.mod_lt c (show 0 < 64 by decide)), ← hc, Nat.div_add_mod, hcl, decide_true,
      Bool.true_and] at h1
    exact h1
  · intro h j _
    apply BitVec.eq_of_getLsbD_eq
    intro b hb
    rw [word_bit _ _ _ _ hb, word_bit _ _ _ _ hb, ← hc]
    by_cases hl : 64 * j + b < ma.ncols
    · rw [h _ hl]
    · simp [hl]

/-- The comparison of two matrices of the same size. -/
def cmpScan (ma mb : Mzd) : Step Int Unit :=
  scan (fun i => scan (fun j => cmpWord (ma.word i j) (mb.word i j)) (List.range ((ma.ncols + 63) / 64)).reverse)
    (List.range' 0 ma.nrows)

theorem cmp_run {a b : Nat} {ma mb : Mzd} (hs : s.Ok) (ha : s.obj a = some ma) (hb : s.obj b = some mb)
    (h0 : 0 < ma.ncols) (hr : ma.nrows = mb.nrows) (hc : ma.ncols = mb.ncols) :
    MatGf2Cmp a b s = .ok (stepVal (cmpScan ma mb), s) := by
  rw [MatGf2Cmp, mzd_cmp, MM_bind (deref_run hs ha), MM_bind (deref_run hs hb), if_neg (by omega), if_neg (by omega),
    if_neg (by omega), if_neg (by omega)]
  simp only []
  rw [if_neg (by omega)]
  have e : (forRet 0 ma.nrows () fun i _ => do
      let r : Step Int Unit ← iterStop (fun j _ =>
        if ma.word i j < mb.word i j then pure (.stop (-1))
        else if mb.word i j < ma.word i j then pure (.stop 1)
        else pure (.next ())) (List.range ((ma.ncols + 63) / 64)).reverse ()
      pure r : MM (Step Int Unit)) s = .ok (cmpScan ma mb, s) := by
    rw [forRet]
    refine iterStop_run _ s ?_
    intro i _
    refine iterStop_run (g := fun j => cmpWord (ma.word i j) (mb.word i j)) _ s ?_
    intro j _
    simp only [cmpWord]
    split
    · rfl
    · split <;> rfl
  rw [MM_bind e]
  cases cmpScan ma mb <;> rfl

theorem cmpScan_flip {ma mb : Mzd} (hr : ma.nrows = mb.nrows) (hc : ma.ncols = mb.ncols) :
    cmpScan mb ma = flip (cmpScan ma mb) := by
  unfold cmpScan
  rw [← hr, ← hc]
  refine scan_flip ?_ _
  intro i
  refine scan_flip ?_ _
  intro j
  exact cmpWord_flip _ _

theorem cmpScan_next {ma mb : Mzd} (hc : ma.ncols = mb.ncols) :
    cmpScan ma mb = .next () ↔ ∀ i j, i < ma.nrows → j < ma.ncols → ma.bit i j = mb.bit i j := by
  unfold cmpScan
  rw [scan_next]
  constructor
  · intro h i j hi hj
    have := h i (by simp [List.mem_range']; exact hi)
    rw [scan_next] at this
    refine (words_eq hc i).1 ?_ j hj
    intro k hk
    exact (cmpWord_next _ _).1 (this k (by simpa using hk))
  · intro h i hi
    have hi : i < ma.nrows := by simpa [List.mem_range'] using hi
    rw [scan_next]
    intro k hk
    refine (cmpWord_next _ _).2 ?_
    exact (words_eq hc i).2 (fun c hc' => h i c hi hc') k (by simpa using hk)

theorem cmpScan_val {ma mb : Mzd} (r : Int) (h : cmpScan ma mb = .stop r) : r = 1 ∨ r = -1 :=
  scan_val (fun _ _ h => scan_val (fun _ _ h => cmpWord_val _ _ _ h) _ _ h) _ _ h

/-! ## Printing -/

theorem Heap.Ok.out (h : s.Ok) (t : List Char) : ({ s with out := t } : Heap).Ok := ⟨h.pos, h.null, h.fresh⟩

/-- The text for one row. -/
def rowText (m : Mzd) (newLine : Bool) (i j : Nat) : List Char :=
  ((List.range j).map fun j =>
    (if newLine then [' '] else []) ++ [if m.bit i j then '1' else '0'] ++ (if newLine then [' '] else [',', ' '])).flatten

/-- The text for the first rows. -/
def rowsText (m : Mzd) (newLine : Bool) (i : Nat) : List Char :=
  ((List.range i).map fun i => rowText m newLine i m.ncols ++ (if newLine then ['\n'] else [' ', '|', ' '])).flatten

theorem dump_run {p : Nat} {m : Mzd} (hs : s.Ok) (hp : s.obj p = some m) (newLine : Bool) :
    DumpMatGf2Line p newLine s
      = .ok ((), { s with out := s.out ++ rowsText m newLine m.nrows ++ (if newLine then ['\n'] else []) }) := by
  have : Run (DumpMatGf2Line p newLine) s fun _ s' =>
      s' = { s with out := s.out ++ rowsText m newLine m.nrows ++ (if newLine then ['\n'] else []) } := by
    rw [DumpMatGf2Line]
    refine Run.step (deref_run hs hp) ?_
    refine Run.bind (P := fun _ s' => s' = { s with out := s.out ++ rowsText m newLine m.nrows }) ?_ ?_
    · refine Run.forUp (fun i _ s' => s' = { s with out := s.out ++ rowsText m newLine i }) (Nat.zero_le _)
        (by simp [rowsText]) ?_ (fun _ _ h => h)
      rintro i _ _ - hi rfl
      refine Run.bind (P := fun _ s' => s' = { s with out := s.out ++ rowsText m newLine i ++ rowText m newLine i m.ncols }) ?_ ?_
      · refine Run.forUp (fun j _ s' => s' = { s with out := s.out ++ rowsText m newLine i ++ rowText m newLine i j })
          (Nat.zero_le _) (by simp [rowText]) ?_ (fun _ _ h => h)
        rintro j _ _ - hj rfl
        have hg : ∀ t, MatGf2Get p i j { s with out := t } = .ok (m.bit i j, { s with out := t }) :=
          fun t => get_run (hs.out t) hp hi hj
        cases newLine
        · refine Run.step (hg _) ?_
          refine ⟨(), _, rfl, ?_⟩
          simp [rowText, List.range_succ]
        · refine Run.step (s' := { s with out := s.out ++ rowsText m true i ++ rowText m true i j ++ [' '] })
            (a := ()) rfl ?_
          refine Run.step (hg _) ?_
          refine ⟨(), _, rfl, ?_⟩
          simp [rowText, List.range_succ]
      · rintro _ _ rfl
        cases newLine
        · refine ⟨(), _, rfl, ?_⟩
          simp [rowsText, List.range_succ]
        · refine ⟨(), _, rfl, ?_⟩
          simp [rowsText, List.range_succ]
    · rintro _ _ rfl
      cases newLine
      · refine ⟨(), _, rfl, ?_⟩
        simp
      · refine ⟨(), _, rfl, ?_⟩
        simp
  obtain ⟨_, _, e, rfl⟩ := this
  exact e

/-! ## Counting -/

theorem filter_update (l : List Nat) (hl : l.Nodup) (f : Nat → Option Mzd) (p : Nat) (hp : p ∈ l) :
    (l.filter fun q => (f q).isSome).length
      = (l.filter fun q => (Function.update f p none q).isSome).length + (f p).isSome.toNat := by
  induction l with
  | nil => simp at hp
  | cons a l ih =>
    have hn := (List.nodup_cons.1 hl)
    by_cases h : a = p
    · subst h
      have : (l.filter fun q => (Function.update f a none q).isSome) = l.filter fun q => (f q).isSome := by
        refine List.filter_congr ?_
        intro q hq
        rw [Function.update_of_ne (by rintro rfl; exact hn.1 hq)]
      simp only [List.filter_cons, this, Function.update_self, Option.isSome_none]
      cases (f a).isSome <;> simp
    · have hp' : p ∈ l := by simpa [Ne.symm h] using hp
      have := ih hn.2 hp'
      simp only [List.filter_cons, Function.update_of_ne h]
      cases (f a).isSome
      · simpa using this
      · simp only [if_true, List.length_cons, this]; omega

theorem live_push (hs : s.Ok) (m : Mzd) : (push s m).live = s.live + 1 := by
  unfold Heap.live
  have h2 : ((List.range s.next).filter fun p => ((push s m).obj p).isSome)
      = (List.range s.next).filter fun p => (s.obj p).isSome := by
    refine List.filter_congr ?_
    intro q hq
    have : q < s.next := by simpa using hq
    rw [push_ne _ _ (by omega)]
  rw [push_next, List.range_succ, List.filter_append, List.length_append, h2]
  simp

theorem live_free (hs : s.Ok) {p : Nat} {m : Mzd} (hp : s.obj p = some m) :
    (setObj s p none).live + 1 = s.live := by
  have := filter_update (List.range s.next) List.nodup_range s.obj p (by simpa using hs.lt hp)
  rw [hp] at this
  exact this.symm

theorem live_skip (hs : s.Ok) (k : Nat) : ({ s with next := s.next + k } : Heap).live = s.live := by
  induction k with
  | zero => rfl
  | succ k ih =>
    rw [← ih]
    show ((List.range (s.next + (k + 1))).filter _).length = ((List.range (s.next + k)).filter _).length
    rw [← Nat.add_assoc, List.range_succ, List.filter_append]
    simp [hs.fresh (s.next + k) (by omega)]

end WB.m4ri
