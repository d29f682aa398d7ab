import Verif.Proof.M4riTrsmRec
import Verif.Proof.M4riNaive
import Verif.Proof.M4riPerm

/-!
# Systems with triangular matrices from the right (helper lemmas)
-/
namespace WB.m4w

open WB.cmp (Mem Mem2)

/-- `N` is `M` after the columns `l` with `S b l` have been added to column `b` where `L` has a one, for all columns `b`; the columns that are added have their final values. -/
structure SolR (L M N : Mzd) (r n : Nat) (S : Nat → Nat → Bool) : Prop where
  sh : Sh M N
  bit : ∀ a b, N.bit a b = (M.bit a b ^^ (decide (a < r ∧ b < n) && xsum n fun l => S b l && (L.bit l b && N.bit a l)))

variable {L M B N : Mzd} {r n : Nat} {S S' : Nat → Nat → Bool}

theorem SolR.start (h : ∀ b < n, ∀ l < n, S b l = false) : SolR L M M r n S := by
  refine ⟨Sh.refl M, fun a b => ?_⟩
  by_cases ha : a < r ∧ b < n
  · rw [xsum_congr (g := fun _ => false) fun l hl => by rw [h b ha.2 l hl]; rfl, xsum_false]
    simp
  · rw [decide_eq_false ha]
    simp

theorem SolR.congr' (h : SolR L M N r n S) (hS : ∀ b < n, ∀ l < n, S' b l = true ↔ S b l = true) : SolR L M N r n S' := by
  refine ⟨h.sh, fun a b => ?_⟩
  rw [h.bit]
  by_cases ha : a < r ∧ b < n
  · rw [xsum_congr fun l hl => by rw [← Bool.eq_iff_iff.2 (hS b ha.2 l hl)]]
  · rw [decide_eq_false ha]
    simp

theorem SolR.step {B' : Mzd} (h : SolR L M B r n S) {i : Nat} (D : Nat → Bool) (sh : Sh B B')
    (hB : ∀ a b, B'.bit a b = (B.bit a b ^^ (decide (a < r ∧ b = i) && xsum n fun l => D l && (L.bit l i && B.bit a l))))
    (hi : i < n) (hSi : ∀ b < n, S b i = false) (hDi : D i = false) (hd : ∀ l < n, S i l = true → D l = false)
    (hS' : ∀ b < n, ∀ l < n, S' b l = true ↔ S b l = true ∨ (b = i ∧ D l = true)) : SolR L M B' r n S' := by
  refine ⟨h.sh.trans sh, fun a b => ?_⟩
  have hcol : ∀ l, l ≠ i → B'.bit a l = B.bit a l := fun l hl => by rw [hB, decide_eq_false (by omega)]; simp
  by_cases hab : a < r ∧ b < n
  · have e1 : xsum n (fun l => S' b l && (L.bit l b && B'.bit a l)) = xsum n fun l => S' b l && (L.bit l b && B.bit a l) := by
      refine xsum_congr fun l hl => ?_
      by_cases hli : l = i
      · have : S' b l = false := by
          rw [hli, Bool.eq_false_iff, Ne, hS' b hab.2 i hi, hSi b hab.2, hDi]
          simp
        rw [this]
        rfl
      · rw [hcol l hli]
    rw [e1, hB, h.bit, decide_eq_true hab, Bool.true_and, Bool.true_and]
    by_cases hb : b = i
    · subst hb
      rw [decide_eq_true ⟨hab.1, rfl⟩, Bool.true_and, Bool.xor_assoc, ← xsum_xor]
      congr 1
      refine xsum_congr fun l hl => ?_
      have h1 := hS' b hab.2 l hl
      have h2 := hd l hl
      revert h1 h2
      cases S b l <;> cases D l <;> cases S' b l <;> simp
    · rw [decide_eq_false (fun h => hb h.2), Bool.false_and, Bool.xor_false]
      congr 1
      refine xsum_congr fun l hl => ?_
      have h1 := hS' b hab.2 l hl
      revert h1
      cases S b l <;> cases S' b l <;> simp [hb]
  · rw [hB, h.bit, decide_eq_false hab, decide_eq_false (show ¬ (a < r ∧ b = i) by omega)]
    simp

/-! ## Columns -/

theorem ucolOf_spec (w : L.Wf) {i lo hi : Nat} (h1 : hi ≤ L.nrows) (h2 : hi ≤ 64) (hle : lo ≤ hi) (hi64 : i < 64) (hi' : i < L.ncols) :
    Ok (ucolOf L i lo hi) fun u => ∀ t, u.getLsbD t = (decide (lo ≤ t ∧ t < hi) && L.bit t i) := by
  unfold ucolOf
  refine Ok.forUp (P := fun k (u : Word) => ∀ t, u.getLsbD t = (decide (lo ≤ t ∧ t < k) && L.bit t i)) hle (fun t => by rw [decide_eq_false (by omega)]; simp) ?_ fun _ h => h
  intro k u hk1 hk2 hu
  rw [getBit0_spec w (by omega) hi64 hi', C_ok_bind]
  by_cases hb : L.bit k i = true
  · rw [if_pos hb, Ok.pure_iff]
    intro t
    rw [BitVec.getLsbD_or, hu, one_shift_bit k t (by omega)]
    by_cases htk : t = k
    · subst htk
      rw [hb, decide_eq_true (show lo ≤ t ∧ t < t + 1 by omega), decide_eq_true rfl]
      simp
    · rw [decide_eq_false htk, Bool.or_false]
      congr 1
      rw [decide_eq_decide]
      omega
  · rw [if_neg hb, Ok.pure_iff]
    intro t
    rw [hu]
    by_cases htk : t = k
    · subst htk
      rw [Bool.eq_false_iff.2 hb]
      simp
    · congr 1
      rw [decide_eq_decide]
      omega

/-- The bits of column `i` in the rows from `lo` to `hi - 1` are changed. -/
def Dots (u : Word) (i lo hi : Nat) (M N : Mzd) : Prop :=
  Sh M N ∧ ∀ a b, N.bit a b = (M.bit a b ^^ (decide (lo ≤ a ∧ a < hi ∧ b = i) && xsum 64 fun t => M.bit a t && u.getLsbD t))

theorem flip_one (w : M.Wf) (h0 : 0 < M.width) {g i : Nat} (hg : g < M.nrows) (hi : i < 64) (q : Bool) {y : Word} (hy : ∀ t < 64, y.getLsbD t = (decide (t = i) && q)) :
    Ok (do M.put g 0 ((← M.get g 0) ^^^ y)) fun N => Sh M N ∧ ∀ a b, N.bit a b = (M.bit a b ^^ (decide (a = g ∧ b = i) && q)) := by
  have hat := w.at (i := g) (j := 0) hg h0
  rw [get_eq hat, C_ok_bind, put_eq _ hat, Ok.ok_iff]
  refine ⟨Sh.set _ _ _ _, fun a b => ?_⟩
  rw [bit_set]
  by_cases hb : a = g ∧ b / 64 = 0
  · rw [if_pos hb, BitVec.getLsbD_xor, hy _ (by omega), hb.1]
    have : (M.word g 0).getLsbD (b % 64) = M.bit g b := by unfold Mzd.bit; rw [hb.2]
    rw [this, show b % 64 = b by omega]
    congr 2
    rw [decide_eq_decide]
    simp
  · rw [if_neg hb, decide_eq_false (by omega)]
    simp

theorem flip_loop (w : M.Wf) {g d i : Nat} {f : Nat → Mzd → C Mzd} (p : Nat → Bool)
    (hf : ∀ b < d, ∀ B, Sh M B → Ok (f b B) fun N => Sh B N ∧ ∀ a c, N.bit a c = (B.bit a c ^^ (decide (a = g + b ∧ c = i) && p b))) :
    Ok (forUp 0 d M f) fun N => Sh M N ∧ ∀ a b, N.bit a b = (M.bit a b ^^ (decide (g ≤ a ∧ a < g + d ∧ b = i) && p (a - g))) := by
  refine Ok.forUp (P := fun d N => Sh M N ∧ ∀ a b, N.bit a b = (M.bit a b ^^ (decide (g ≤ a ∧ a < g + d ∧ b = i) && p (a - g)))) (Nat.zero_le _)
    ⟨Sh.refl M, fun a b => by rw [decide_eq_false (by omega)]; simp⟩ ?_ fun _ h => h
  intro k B _ hk ⟨sh, hB⟩
  refine (hf k hk B sh).mono fun N ⟨sh', hN⟩ => ⟨sh.trans sh', fun a b => ?_⟩
  rw [hN, hB]
  by_cases ha : a = g + k
  · subst ha
    rw [decide_eq_false (show ¬ (g ≤ g + k ∧ g + k < g + k ∧ b = i) by omega), Nat.add_sub_cancel_left, Bool.false_and, Bool.xor_false]
    congr 2
    rw [decide_eq_decide]
    omega
  · rw [decide_eq_false (show ¬ (a = g + k ∧ b = i) from fun h => ha h.1), Bool.false_and, Bool.xor_false]
    congr 2
    rw [decide_eq_decide]
    omega

theorem fill_spec (w : M.Wf) (h0 : 0 < M.width) (u : Word) {g d : Nat} (hd : d ≤ 64) (hg : g + d ≤ M.nrows) {tmp : Mem Word} (hs : tmp.size = 64) :
    Ok (forUp 0 d tmp fun b tmp => do tmp.put b ((← M.get (g + b) 0) &&& u)) fun m => m.size = 64 ∧ ∀ k < d, ∀ t < 64, (m.cell k).getLsbD t = (M.bit (g + k) t && u.getLsbD t) := by
  refine Ok.forUp (P := fun d (m : Mem Word) => m.size = 64 ∧ ∀ k < d, ∀ t < 64, (m.cell k).getLsbD t = (M.bit (g + k) t && u.getLsbD t)) (Nat.zero_le _)
    ⟨hs, fun k hk => absurd hk (by omega)⟩ ?_ fun _ h => h
  intro k m _ hk ⟨e1, e2⟩
  rw [get_eq (w.at (by omega) h0), C_ok_bind, mem_put_eq _ (by omega), Ok.ok_iff]
  refine ⟨e1, fun k' hk' t ht => ?_⟩
  show BitVec.getLsbD (if k' = k then _ else m.cell k') t = _
  split
  · rename_i h
    subst h
    rw [BitVec.getLsbD_and]
    unfold Mzd.bit
    rw [show t / 64 = 0 by omega, show t % 64 = t by omega]
  · exact e2 k' (by omega) t ht

theorem rightStep_spec (w : M.Wf) (h0 : 0 < M.width) (u : Word) {g i : Nat} (hi : i < 64) (hg : g + 64 ≤ M.nrows) {tmp : Mem Word} (hs : tmp.size = 64) :
    Ok (rightStep u i g (M, tmp)) fun s => s.2.size = 64 ∧ Dots u i g (g + 64) M s.1 := by
  unfold rightStep
  refine Ok.bind (fill_spec w h0 u (Nat.le_refl 64) hg hs) fun m ⟨e1, e2⟩ => ?_
  simp only []
  refine Ok.bind (flip_loop (g := g) (i := i) w (fun b => (m4ri_parity64 m.cell).getLsbD b) ?_) ?_
  · intro b hb B sh
    refine flip_one (sh.wf w) (by rw [sh.width]; exact h0) (by rw [sh.nrows]; omega) hi _ fun t ht => ?_
    rw [BitVec.getLsbD_shiftLeft, BitVec.getLsbD_and, BitVec.getLsbD_ushiftRight]
    by_cases hti : t = i
    · subst hti
      simp [ht]
    · have : t < i ∨ t - i ≠ 0 := by omega
      rcases this with h | h
      · simp [h, hti]
      · simp [hti, h]
  · intro N ⟨sh, hN⟩
    rw [Ok.pure_iff]
    refine ⟨e1, sh, fun a b => ?_⟩
    show N.bit a b = _
    rw [hN]
    by_cases ha : g ≤ a ∧ a < g + 64 ∧ b = i
    · rw [parity64 _ (show a - g < 64 by omega), xsum_congr fun t ht => e2 (a - g) (by omega) t ht, show g + (a - g) = a by omega]
    · rw [decide_eq_false ha]
      simp

theorem rightLast_spec (w : M.Wf) (h0 : 0 < M.width) (u : Word) {g i : Nat} (hi : i < 64) (hg : g ≤ M.nrows) (hg' : M.nrows ≤ g + 64) {tmp : Mem Word} (hs : tmp.size = 64) :
    Ok (rightLast u i g (M, tmp)) fun s => s.2.size = 64 ∧ Dots u i g M.nrows M s.1 := by
  unfold rightLast
  refine Ok.bind (fill_spec w h0 u (show M.nrows - g ≤ 64 by omega) (by omega) hs) fun m ⟨e1, e2⟩ => ?_
  refine Ok.bind (P := fun m' : Mem Word => m'.size = 64 ∧ ∀ k < M.nrows - g, m'.cell k = m.cell k) ?_ ?_
  · refine Ok.forUp (P := fun _ (m' : Mem Word) => m'.size = 64 ∧ ∀ k < M.nrows - g, m'.cell k = m.cell k) (show M.nrows - g ≤ 64 by omega) ⟨e1, fun _ _ => rfl⟩ ?_ fun _ h => h
    intro k m' hk1 hk2 ⟨e3, e4⟩
    have hk1 : M.nrows - g ≤ k := hk1
    rw [mem_put_eq _ (by omega), Ok.ok_iff]
    exact ⟨e3, fun k' hk' => (if_neg (by omega)).trans (e4 k' hk')⟩
  intro m' ⟨e3, e4⟩
  simp only []
  refine Ok.bind (flip_loop (g := g) (i := i) w (fun b => (m4ri_parity64 m'.cell).getLsbD b) ?_) ?_
  · intro b hb B sh
    have e5 : (((m4ri_parity64 m'.cell >>> b) &&& 1#64) != 0#64) = (m4ri_parity64 m'.cell).getLsbD b := by
      rw [and_one_ne]
    rw [e5]
    by_cases hp : (m4ri_parity64 m'.cell).getLsbD b = true
    · rw [if_pos hp, hp]
      exact flip_one (sh.wf w) (by rw [sh.width]; exact h0) (by rw [sh.nrows]; omega) hi _ fun t ht => by rw [one_shift_bit i t hi, Bool.and_true]
    · rw [if_neg hp, Bool.eq_false_iff.2 hp, Ok.pure_iff]
      exact ⟨Sh.refl B, fun a c => by simp⟩
  · intro N ⟨sh, hN⟩
    rw [Ok.pure_iff]
    refine ⟨e3, sh, fun a b => ?_⟩
    show N.bit a b = _
    rw [hN]
    by_cases ha : g ≤ a ∧ a < M.nrows ∧ b = i
    · rw [parity64 _ (show a - g < 64 by omega), e4 _ (by omega), xsum_congr fun t ht => e2 (a - g) (by omega) t ht, show g + (a - g) = a by omega,
        decide_eq_true ha, decide_eq_true (show g ≤ a ∧ a < g + (M.nrows - g) ∧ b = i by omega)]
    · rw [decide_eq_false ha, decide_eq_false (show ¬ (g ≤ a ∧ a < g + (M.nrows - g) ∧ b = i) by omega)]
      simp

theorem Dots.trans {u : Word} {i lo mid hi : Nat} {M N N' : Mzd} (h1 : Dots u i lo mid M N) (h2 : Dots u i mid hi N N') (hl : lo ≤ mid) (hh : mid ≤ hi) : Dots u i lo hi M N' := by
  refine ⟨h1.1.trans h2.1, fun a b => ?_⟩
  rw [h2.2, h1.2]
  by_cases ha : mid ≤ a
  · have : ∀ t, N.bit a t = M.bit a t := fun t => by rw [h1.2, decide_eq_false (by omega)]; simp
    rw [decide_eq_false (show ¬ (lo ≤ a ∧ a < mid ∧ b = i) by omega), Bool.false_and, Bool.xor_false, xsum_congr fun t _ => by rw [this t]]
    congr 2
    rw [decide_eq_decide]
    omega
  · rw [decide_eq_false (show ¬ (mid ≤ a ∧ a < hi ∧ b = i) by omega), Bool.false_and, Bool.xor_false]
    congr 2
    rw [decide_eq_decide]
    omega

theorem rightCol_spec (w : M.Wf) (h0 : 0 < M.width) (u : Word) {i : Nat} (hi : i < 64) {tmp : Mem Word} (hs : tmp.size = 64) :
    Ok (rightCol u i (M, tmp)) fun s => s.2.size = 64 ∧ Dots u i 0 M.nrows M s.1 := by
  unfold rightCol
  simp only []
  refine Ok.bind (P := fun s => s.2.size = 64 ∧ Dots u i 0 (64 * ((M.nrows - 1) / 64)) M s.1) ?_ ?_
  · refine Ok.forUp (P := fun t s => s.2.size = 64 ∧ Dots u i 0 (64 * t) M s.1) (Nat.zero_le _) ⟨hs, Sh.refl M, fun a b => by rw [decide_eq_false (by omega)]; simp⟩ ?_ fun _ h => h
    intro t ⟨B, m⟩ _ ht ⟨e1, e2⟩
    refine (rightStep_spec (e2.1.wf w) (by rw [e2.1.width]; exact h0) u hi (by rw [e2.1.nrows]; omega) e1).mono fun s ⟨e3, e4⟩ => ⟨e3, ?_⟩
    rw [show 64 * (t + 1) = 64 * t + 64 by omega]
    exact e2.trans e4 (Nat.zero_le _) (by omega)
  · intro ⟨B, m⟩ ⟨e1, e2⟩
    have e5 : B.nrows = M.nrows := e2.1.nrows
    refine (rightLast_spec (e2.1.wf w) (by rw [e2.1.width]; exact h0) u hi (by rw [e5]; omega) (by rw [e5]; omega) e1).mono fun s ⟨e3, e4⟩ => ⟨e3, ?_⟩
    rw [e5] at e4
    exact e2.trans e4 (Nat.zero_le _) (by omega)

theorem xsum_cut {n m : Nat} (h : n ≤ m) {f : Nat → Bool} (hf : ∀ t, n ≤ t → f t = false) : xsum m f = xsum n f := by
  obtain ⟨d, rfl⟩ : ∃ d, m = n + d := ⟨m - n, by omega⟩
  rw [xsum_add, xsum_congr (n := d) (g := fun _ => false) fun t _ => hf (n + t) (by omega), xsum_false, Bool.xor_false]

/-- A column of the result. -/
theorem SolR.col (h : SolR L M B r n S) (wM : M.Wf) (hr : M.nrows = r) (hc : M.ncols = n) (hn : n ≤ 64) {u : Word} {i lo hi : Nat} (hi' : hi ≤ n) (hil : i < lo ∨ hi ≤ i)
    (hu : ∀ t, u.getLsbD t = (decide (lo ≤ t ∧ t < hi) && L.bit t i)) {tmp : Mem Word} (hs : tmp.size = 64)
    (hin : i < n) (hSi : ∀ b < n, S b i = false) (hd : ∀ l < n, S i l = true → ¬ (lo ≤ l ∧ l < hi))
    (hS' : ∀ b < n, ∀ l < n, S' b l = true ↔ S b l = true ∨ (b = i ∧ lo ≤ l ∧ l < hi)) : Ok (rightCol u i (B, tmp)) fun s => s.2.size = 64 ∧ SolR L M s.1 r n S' := by
  refine (rightCol_spec (h.sh.wf wM) (by rw [h.sh.width]; unfold Mzd.width; omega) u (by omega) hs).mono fun s ⟨e1, e2⟩ => ⟨e1, ?_⟩
  refine h.step (i := i) (fun l => decide (lo ≤ l ∧ l < hi)) e2.1 (fun a b => ?_) hin hSi (decide_eq_false (by omega)) (fun l hl hS => decide_eq_false (hd l hl hS))
    (fun b hb l hl => by rw [hS' b hb l hl, decide_eq_true_eq])
  have k1 : (xsum 64 fun t => B.bit a t && u.getLsbD t) = xsum n fun l => decide (lo ≤ l ∧ l < hi) && (L.bit l i && B.bit a l) := by
    rw [xsum_cut hn fun t ht => by rw [hu, decide_eq_false (by omega)]; simp]
    refine xsum_congr fun l _ => ?_
    rw [hu]
    cases decide (lo ≤ l ∧ l < hi) <;> cases L.bit l i <;> cases B.bit a l <;> rfl
  rw [e2.2, h.sh.nrows, hr, k1, show decide (0 ≤ a ∧ a < r ∧ b = i) = decide (a < r ∧ b = i) from decide_eq_decide.2 (by omega)]

theorem lowerRightBase_spec (junk : Nat → Word) (wL : L.Wf) (lr : L.nrows = n) (lc : L.ncols = n) (wM : M.Wf) (hr : M.nrows = r) (hc : M.ncols = n) (hn : n ≤ 64) :
    Ok (lowerRightBase junk L M) fun N => SolR L M N r n fun b l => decide (b < l) := by
  unfold lowerRightBase
  rw [hc]
  refine Ok.bind (Ok.forDown (P := fun i s => s.2.size = 64 ∧ SolR L M s.1 r n fun b l => decide (b < l ∧ i ≤ b)) (Nat.zero_le _) ⟨rfl, SolR.start fun b _ l _ => decide_eq_false (by omega)⟩ ?_
    fun _ h => h) fun s ⟨_, h⟩ => ?_
  · intro i ⟨B, m⟩ _ hi ⟨e1, h⟩
    refine Ok.bind (ucolOf_spec wL (by omega) hn (by omega) (by omega) (by omega)) fun u hu => ?_
    exact h.col wM hr hc hn (Nat.le_refl n) (Or.inl (Nat.lt_succ_self i)) hu e1 hi (fun b _ => decide_eq_false (by omega)) (fun l _ hS => by rw [decide_eq_true_eq] at hS; omega)
      fun b hb l hl => by simp only [decide_eq_true_eq]; omega
  · rw [Ok.pure_iff]
    exact h.congr' fun b _ l _ => by simp only [decide_eq_true_eq]; omega

theorem upperRightBase_spec (junk : Nat → Word) (wL : L.Wf) (lr : L.nrows = n) (lc : L.ncols = n) (wM : M.Wf) (hr : M.nrows = r) (hc : M.ncols = n) (hn : n ≤ 64) :
    Ok (upperRightBase junk L M) fun N => SolR L M N r n fun b l => decide (l < b) := by
  unfold upperRightBase
  rw [hc]
  by_cases h1 : 1 ≤ n
  · refine Ok.bind (Ok.forUp (P := fun i s => s.2.size = 64 ∧ SolR L M s.1 r n fun b l => decide (l < b ∧ b < i)) h1 ⟨rfl, SolR.start fun b _ l _ => decide_eq_false (by omega)⟩ ?_
      fun _ h => h) fun s ⟨_, h⟩ => ?_
    · intro i ⟨B, m⟩ _ hi ⟨e1, h⟩
      refine Ok.bind (ucolOf_spec wL (by omega) (by omega) (Nat.zero_le i) (by omega) (by omega)) fun u hu => ?_
      exact h.col wM hr hc hn (by omega) (Or.inr (Nat.le_refl i)) hu e1 hi (fun b _ => decide_eq_false (by omega)) (fun l _ hS => by rw [decide_eq_true_eq] at hS; omega)
        fun b hb l hl => by simp only [decide_eq_true_eq]; omega
    · rw [Ok.pure_iff]
      exact h.congr' fun b _ l _ => by simp only [decide_eq_true_eq]; omega
  · rw [show n = 0 by omega]
    exact ⟨M, rfl, SolR.start fun b hb => absurd hb (by omega)⟩

/-! ## The recursion -/

/-- The numbers of columns that end in an access outside of the matrices for small cutoffs: the number of whole words begins with the binary digits 11, and at least 22 columns
follow. -/
def TailCrash (n : Nat) : Prop := 22 ≤ n % 64 ∧ ∃ j, 3 * 2 ^ j ≤ n / 64 ∧ n / 64 < 4 * 2 ^ j

theorem tail_crash {n : Nat} : TailCrash n ↔ (214 ≤ n ∧ n ≤ 255) ∨ (64 < n ∧ TailCrash (n - trsmHalf n)) := by
  unfold TailCrash
  by_cases h : 22 ≤ n % 64
  · have e1 : (n - trsmHalf n) % 64 = n % 64 := by unfold trsmHalf; omega
    have e2 : (n - trsmHalf n) / 64 = n / 64 / 2 := by unfold trsmHalf; omega
    rw [e1, e2]
    constructor
    · rintro ⟨_, j, h1, h2⟩
      cases j with
      | zero => left; omega
      | succ j =>
        rw [Nat.pow_succ] at h1 h2
        have := Nat.two_pow_pos j
        exact Or.inr ⟨by omega, h, j, by omega, by omega⟩
    · rintro (h1 | ⟨_, _, j, h1, h2⟩)
      · exact ⟨h, 0, by omega, by omega⟩
      · refine ⟨h, j + 1, ?_, ?_⟩ <;> rw [Nat.pow_succ] <;> omega
  · constructor
    · rintro ⟨h1, _⟩
      omega
    · rintro (h1 | ⟨h1, h2, _⟩)
      · omega
      · unfold trsmHalf at h2
        omega

theorem not_tail_crash {n : Nat} (h : n % 64 = 0) : ¬ TailCrash n := fun h' => by
  have := h'.1
  omega

/-- The right part and the product. -/
theorem lower_right {junk junk' : Nat → Word} {mb : Mzd → Mzd → C Mzd} {dflt cutoff r : Nat} (hr29 : r < 2 ^ 29) (hbig : asked dflt cutoff < 2 ^ 29) :
    ∀ (fuel : Nat) (e : List Nat → TrsmEnv) (n : Nat) (L M : Mzd), n < fuel → n ≤ 2 ^ 24 → L.Wf → L.nrows = n → L.ncols = n → M.Wf → M.nrows = r → M.ncols = n → (64 < n → M.Clean) →
    (asked dflt cutoff < 128 → 128 ≤ r → ¬ TailCrash n) →
    Ok (_mzd_trsm_lower_right (mzd_transpose_any junk mb) junk' dflt cutoff fuel e L M) fun N => SolR L M N r n fun b l => decide (b < l) := by
  intro fuel
  induction fuel with
  | zero => intro e n L M h; omega
  | succ fuel ih =>
    intro e n L M hf hn wL lr lc wM hr hc cl hbad
    unfold _mzd_trsm_lower_right
    simp only []
    by_cases h64 : M.ncols ≤ 64
    · rw [if_pos h64]
      exact lowerRightBase_spec junk' wL lr lc wM hr hc (by omega)
    rw [if_neg h64, hr, hc]
    obtain ⟨r1, r2, r3, r4, r5⟩ := trsmHalf_range (n := n) (by omega)
    have hbad1 : asked dflt cutoff < 128 → 128 ≤ r → ¬ TailCrash (n - trsmHalf n) := fun h1 h2 h3 => hbad h1 h2 (tail_crash.2 (Or.inr ⟨by omega, h3⟩))
    have hbad2 : asked dflt cutoff < 128 → ¬ Crashes r (n - trsmHalf n) (trsmHalf n) := fun h1 ⟨h2, h3, h4, h5⟩ => hbad h1 h4 (tail_crash.2 (Or.inl (by unfold trsmHalf at *; omega)))
    generalize trsmHalf n = m at r1 r2 r3 r4 r5 hbad1 hbad2
    have cl := cl (by omega)
    -- the columns to the right
    obtain ⟨W1, e1, h1⟩ := ih (fun l => e (0 :: l)) (n - m) (mzd_window L m m n n) (mzd_window M 0 m r n) (by omega) (by omega) (window_wf wL r1 (by omega) (by omega) (by omega) (by omega))
      (by rw [window_nrows (by omega)]) rfl (window_wf wM r1 (by omega) (by omega) (by omega) (by omega)) (by rw [window_nrows (by omega)]; omega) rfl
      (fun _ => window_clean cl r1 (by omega) (by omega) (by omega) (Or.inl hc.symm)) hbad1
    have b1 := h1.bit
    simp only [window_bit _ r1, Nat.zero_add] at b1
    obtain ⟨N1, f1, s1, i1, o1⟩ := onWindow_bits (r := r) (c := n - m) wM r1 e1 h1.sh fun a b hab => by rw [b1, decide_eq_false hab, Bool.false_and, Bool.xor_false, Nat.zero_add]
    simp only [Nat.zero_add] at i1
    have w1 := s1.wf wM
    have n1 : N1.nrows = r := by rw [s1.nrows, hr]
    have c1 : N1.ncols = n := by rw [s1.ncols, hc]
    have k1 : N1.Clean := fun i hi j hj1 hj2 => by
      rw [o1 i j (by omega)]
      exact cl i (by omega) j (by omega) (by rw [← s1.width]; exact hj2)
    rw [f1, C_ok_bind]
    -- the product
    have rX := window_rep (x := 0) (y := 0) (x' := r) (y' := m) w1 rfl (by omega) (by omega) (by omega) (by omega) (Nat.sub_zero r) (Nat.sub_zero m)
    have rA := window_rep (x := 0) (y := m) (x' := r) (y' := n) w1 r1 (by omega) (by omega) (by omega) (by omega) (Nat.sub_zero r) rfl
    have rB := window_rep (x := m) (y := 0) (x' := n) (y' := m) wL rfl (by omega) (by omega) (by omega) (by omega) rfl (Nat.sub_zero m)
    obtain ⟨W2, e2, h2⟩ := addmul_adds (junk := junk) (mb := mb) (e := (e []).mul) (win := true) (dflt := dflt) (cutoff := cutoff) (show n - m ≤ 2 ^ 24 by omega) hr29 (show m < 2 ^ 29 by omega) hbig
      hbad2 rX rA (window_clean k1 r1 (by omega) (by omega) (by omega) (Or.inl c1.symm)) rB (window_clean' (by omega))
    have b2 := fun {a b : Nat} (ha : a < r) (hb : b < m) => adds_bits rX rA rB h2 ha hb
    simp only [window_bit _ (Nat.zero_mod 64), window_bit _ r1, Nat.zero_add] at b2
    obtain ⟨N2, f2, s2, i2, o2⟩ := onWindow_bits (r := r) (c := m) (x := 0) (y := 0) (x' := r) (y' := m)
      (f := fun W => mzd_addmul (mzd_transpose_any junk mb) (e []).mul true dflt cutoff W (mzd_window N1 0 m r n) (mzd_window L m 0 n m)) w1 rfl e2 h2.sh
      fun a b hab => by rw [h2.out a b hab, window_bit _ (Nat.zero_mod 64)]
    simp only [Nat.zero_add] at i2
    have w2 := s2.wf w1
    have n2 : N2.nrows = r := by rw [s2.nrows, n1]
    have c2 : N2.ncols = n := by rw [s2.ncols, c1]
    rw [f2, C_ok_bind]
    -- the columns to the left
    obtain ⟨W3, e3, h3⟩ := ih (fun l => e (1 :: l)) m (mzd_window L 0 0 m m) (mzd_window N2 0 0 r m) (by omega) (by omega) (window_wf wL rfl (by omega) (by omega) (by omega) (by omega))
      (by rw [window_nrows (by omega)]; omega) (Nat.sub_zero _) (window_wf w2 rfl (by omega) (by omega) (by omega) (by omega)) (by rw [window_nrows (by omega)]; omega) (Nat.sub_zero _)
      (fun _ => window_clean' (by omega)) (fun _ _ => not_tail_crash r1)
    have b3 := h3.bit
    simp only [window_bit _ (Nat.zero_mod 64), Nat.zero_add] at b3
    obtain ⟨N3, f3, s3, i3, o3⟩ := onWindow_bits (r := r) (c := m) w2 rfl e3 h3.sh fun a b hab => by rw [b3, decide_eq_false hab, Bool.false_and, Bool.xor_false, Nat.zero_add, Nat.zero_add]
    simp only [Nat.zero_add] at i3
    refine ⟨N3, f3, (s1.trans s2).trans s3, fun a b => ?_⟩
    have rgt : ∀ l, m ≤ l → N3.bit a l = N1.bit a l := fun l hl => by rw [o3 a l (by omega), o2 a l (by omega)]
    by_cases hab : a < r ∧ b < n
    · rw [decide_eq_true hab, Bool.true_and]
      rw [show n = m + (n - m) by omega, xsum_add]
      by_cases hb : b < m
      · rw [i3 a hab.1 b hb, b3, decide_eq_true ⟨hab.1, hb⟩, Bool.true_and, i2 a hab.1 b hb, b2 hab.1 hb, o1 _ _ (by omega), Bool.xor_assoc, Bool.xor_comm (xsum (n - m) _)]
        congr 2
        · exact xsum_congr fun l hl => by rw [i3 a hab.1 l hl]
        · exact xsum_congr fun l hl => by rw [rgt _ (by omega), decide_eq_true (by omega), Bool.true_and, Bool.and_comm]
      · obtain ⟨b, rfl⟩ : ∃ b', b = m + b' := ⟨b - m, by omega⟩
        have hb' : b < n - m := by omega
        rw [rgt _ (by omega), i1 a hab.1 b hb', b1, decide_eq_true ⟨hab.1, hb'⟩, Bool.true_and]
        rw [xsum_congr (n := m) (g := fun _ => false) fun l _ => by rw [decide_eq_false (by omega)]; rfl, xsum_false, Bool.false_xor]
        congr 1
        exact xsum_congr fun l hl => by rw [rgt _ (by omega), i1 a hab.1 l hl, show decide (m + b < m + l) = decide (b < l) from decide_eq_decide.2 (by omega)]
    · rw [decide_eq_false hab, Bool.false_and, Bool.xor_false, o3 a b (by omega), o2 a b (by omega), o1 a b (by omega)]

theorem onWindow_error {M : Mzd} {x y x' y' : Nat} {f : Mzd → C Mzd} {err : Fault} (h : f (mzd_window M x y x' y') = .error err) : onWindow M x y x' y' f = .error err := by
  unfold onWindow
  simp only [h]
  rfl

/-- Where it ends in an access outside of the matrices. -/
theorem lower_right_crash {junk junk' : Nat → Word} {mb : Mzd → Mzd → C Mzd} {dflt cutoff r : Nat} (hr29 : r < 2 ^ 29) (hs : asked dflt cutoff < 128) (hr128 : 128 ≤ r) :
    ∀ (fuel : Nat) (e : List Nat → TrsmEnv) (n : Nat) (L M : Mzd), n < fuel → n ≤ 2 ^ 24 → L.Wf → L.nrows = n → L.ncols = n → M.Wf → M.nrows = r → M.ncols = n → M.Clean →
    TailCrash n → _mzd_trsm_lower_right (mzd_transpose_any junk mb) junk' dflt cutoff fuel e L M = .error .oob := by
  intro fuel
  induction fuel with
  | zero => intro e n L M h; omega
  | succ fuel ih =>
    intro e n L M hf hn wL lr lc wM hr hc cl hbad
    unfold _mzd_trsm_lower_right
    simp only []
    have h64 : 64 < n := by
      rcases tail_crash.1 hbad with h | h <;> omega
    rw [if_neg (show ¬ M.ncols ≤ 64 by omega), hr, hc]
    obtain ⟨r1, r2, r3, r4, r5⟩ := trsmHalf_range (n := n) h64
    have wfs := window_wf wM (x := 0) (y := trsmHalf n) (x' := r) (y' := n) r1 (by omega) (by omega) (by omega) (by omega)
    have wls := window_wf wL (x := trsmHalf n) (y := trsmHalf n) (x' := n) (y' := n) r1 (by omega) (by omega) (by omega) (by omega)
    have cls := window_clean (x := 0) (y := trsmHalf n) (x' := r) (y' := n) cl r1 (by omega) (by omega) (by omega) (Or.inl hc.symm)
    by_cases htail : TailCrash (n - trsmHalf n)
    · rw [onWindow_error (ih _ (n - trsmHalf n) _ _ (by omega) (by omega) wls (by rw [window_nrows (by omega)]) rfl wfs (by rw [window_nrows (by omega)]; omega) rfl cls htail)]
      rfl
    · have hr255 : 214 ≤ n ∧ n ≤ 255 := by
        rcases tail_crash.1 hbad with h | h
        · exact h
        · exact absurd h.2 htail
      have e128 : trsmHalf n = 128 := by unfold trsmHalf; omega
      rw [e128] at r1 r2 r3 r4 r5 wfs wls cls htail
      rw [e128]
      obtain ⟨W1, e1, h1⟩ := lower_right (junk := junk) (junk' := junk') (mb := mb) (dflt := dflt) (cutoff := cutoff) hr29 (by omega) fuel (fun l => e (0 :: l)) (n - 128) _ _ (by omega) (by omega) wls
        (by rw [window_nrows (by omega)]) rfl wfs (by rw [window_nrows (by omega)]; omega) rfl (fun _ => cls) (fun _ _ => htail)
      obtain ⟨N1, f1, s1, i1, o1⟩ := onWindow_bits (r := r) (c := n - 128) wM r1 e1 h1.sh fun a b hab => by
        rw [h1.bit, decide_eq_false hab, Bool.false_and, Bool.xor_false, window_bit _ r1]
      have w1 := s1.wf wM
      have n1 : N1.nrows = r := by rw [s1.nrows, hr]
      have c1 : N1.ncols = n := by rw [s1.ncols, hc]
      rw [f1, C_ok_bind]
      have rX := window_rep (x := 0) (y := 0) (x' := r) (y' := 128) w1 rfl (by omega) (by omega) (by omega) (by omega) (Nat.sub_zero r) (Nat.sub_zero 128)
      have rA := window_rep (x := 0) (y := 128) (x' := r) (y' := n) w1 r1 (by omega) (by omega) (by omega) (by omega) (Nat.sub_zero r) rfl
      have rB := window_rep (x := 128) (y := 0) (x' := n) (y' := 128) wL rfl (by omega) (by omega) (by omega) (by omega) rfl (Nat.sub_zero 128)
      rw [onWindow_error (f := fun W => mzd_addmul (mzd_transpose_any junk mb) (e []).mul true dflt cutoff W (mzd_window N1 0 128 r n) (mzd_window L 128 0 n 128)) (C108_addmul_crash_violated _ _ _ _ _ hr29 (by omega) rX rA rB hs (by unfold Crashes; omega))]
      rfl

end WB.m4w
