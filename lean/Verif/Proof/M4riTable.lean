import Verif.Proof.M4riGray

/-!
# Rows and tables of linear combinations in M4RI (helper lemmas)
-/
namespace WB.m4w

open WB.cmp (Mem Mem2)

/-- The sum over GF(2) of `f 0, …, f (n - 1)`. -/
def xsum : Nat → (Nat → Bool) → Bool
  | 0, _ => false
  | n + 1, f => xsum n f ^^ f n

theorem xsum_congr {n : Nat} {f g : Nat → Bool} (h : ∀ i < n, f i = g i) : xsum n f = xsum n g := by
  induction n with
  | zero => rfl
  | succ n ih => rw [xsum, xsum, ih fun i hi => h i (by omega), h n (by omega)]

theorem xsum_false {n : Nat} : xsum n (fun _ => false) = false := by
  induction n with
  | zero => rfl
  | succ n ih => rw [xsum, ih]; rfl

theorem xsum_add (n m : Nat) (f : Nat → Bool) : xsum (n + m) f = (xsum n f ^^ xsum m fun i => f (n + i)) := by
  induction m with
  | zero => simp [xsum]
  | succ m ih => rw [← Nat.add_assoc, xsum, ih, xsum, Bool.xor_assoc]

theorem xsum_and (n : Nat) (b : Bool) (f : Nat → Bool) : xsum n (fun i => b && f i) = (b && xsum n f) := by
  cases b
  · simp [xsum_false]
  · simp

theorem xsum_xor (n : Nat) (f g : Nat → Bool) : xsum n (fun i => f i ^^ g i) = (xsum n f ^^ xsum n g) := by
  induction n with
  | zero => rfl
  | succ n ih =>
    rw [xsum, xsum, xsum, ih]
    cases xsum n f <;> cases xsum n g <;> cases f n <;> cases g n <;> rfl

theorem xsum_one {n s : Nat} (hs : s < n) (f : Nat → Bool) : xsum n (fun i => decide (i = s) && f i) = f s := by
  induction n with
  | zero => omega
  | succ n ih =>
    rw [xsum]
    by_cases h : n = s
    · subst h
      rw [xsum_congr (g := fun _ => false) (fun i hi => by simp [show ¬ i = n by omega]), xsum_false]
      simp
    · rw [ih (by omega)]
      simp [h]

theorem xsum_flip {k s x : Nat} (hs : s < k) (f : Nat → Bool) :
    xsum k (fun l => (x ^^^ 2 ^ s).testBit l && f l) = (xsum k (fun l => x.testBit l && f l) ^^ f s) := by
  rw [← xsum_one hs f, ← xsum_xor]
  refine xsum_congr fun i _ => ?_
  rw [Nat.testBit_xor, Nat.testBit_two_pow, show decide (s = i) = decide (i = s) from decide_eq_decide.2 eq_comm]
  cases x.testBit i <;> cases f i <;> cases decide (i = s) <;> rfl

theorem bit_of_word {M N : Mzd} {a b : Nat} {i lo hi : Nat} {F : Nat → Word}
    (h : ∀ a b, N.word a b = if a = i ∧ lo ≤ b ∧ b < hi then F b else M.word a b) :
    N.bit a b = if a = i ∧ lo ≤ b / 64 ∧ b / 64 < hi then (F (b / 64)).getLsbD (b % 64) else M.bit a b := by
  unfold Mzd.bit
  rw [h]
  split <;> rfl

theorem bit_set (M : Mzd) (i j : Nat) (x : Word) (a b : Nat) :
    (M.set i j x).bit a b = if a = i ∧ b / 64 = j then x.getLsbD (b % 64) else M.bit a b := by
  unfold Mzd.bit
  rw [word_set]
  split <;> rfl

/-! ## Clearing and copying -/

/-- Clearing row `i` leaves the unused bits as they are. -/
theorem clear_row {A : Mzd} (w : A.Wf) (h0 : 0 < A.ncols) {i : Nat} (hi : i < A.nrows) :
    Ok (do
      let A ← forUp 0 (A.width - 1) A fun j A => A.put i j 0#64
      A.put i (A.width - 1) ((← A.get i (A.width - 1)) &&& ~~~A.high)) fun B =>
      Sh A B ∧ ∀ a b, B.bit a b = if a = i ∧ b < A.ncols then false else A.bit a b := by
  have hw := width_pos h0
  refine Ok.bind (row_loop (fun _ => 0#64) w hi (by omega) fun j N _ _ _ _ => rfl) ?_
  intro N ⟨sh, hN⟩
  have hat := (sh.wf w).at (i := i) (j := A.width - 1) (by rw [sh.nrows]; exact hi) (by rw [sh.width]; omega)
  rw [sh.width, get_eq hat, C_ok_bind, put_eq _ hat, Ok.ok_iff]
  refine ⟨sh.trans (Sh.set _ _ _ _), fun a b => ?_⟩
  rw [bit_set, bit_of_word hN, hN]
  by_cases ha : a = i
  · subst ha
    rcases Nat.lt_trichotomy (b / 64) (A.width - 1) with hb | hb | hb
    · rw [if_neg (by omega), if_pos ⟨rfl, by omega, hb⟩, if_pos ⟨rfl, lt_of_not_last hb⟩]
      simp
    · rw [if_pos ⟨rfl, hb⟩, if_neg (by omega), BitVec.getLsbD_and, BitVec.getLsbD_not, sh.high, high_bit A hb h0]
      have : b % 64 < 64 := Nat.mod_lt _ (by omega)
      by_cases hc : b < A.ncols
      · rw [if_pos ⟨rfl, hc⟩]; simp [hc]
      · rw [if_neg (by omega)]
        unfold Mzd.bit
        simp [hc, this, hb]
    · rw [if_neg (by omega), if_neg (by omega), if_neg (fun h => by have := lt_width h.2; omega)]
  · rw [if_neg (fun h => ha h.1), if_neg (fun h => ha h.1), if_neg (fun h => ha h.1)]

/-- What `mzd_set_ui(A, 0)` does. -/
theorem clear_all {A : Mzd} (w : A.Wf) (h0 : 0 < A.ncols) :
    Ok (forUp 0 A.nrows A fun i A => do
      let A ← forUp 0 (A.width - 1) A fun j A => A.put i j 0#64
      A.put i (A.width - 1) ((← A.get i (A.width - 1)) &&& ~~~A.high)) fun B =>
      Sh A B ∧ ∀ a b, B.bit a b = if a < A.nrows ∧ b < A.ncols then false else A.bit a b := by
  refine Ok.forUp (P := fun i B => Sh A B ∧ ∀ a b, B.bit a b = if a < i ∧ b < A.ncols then false else A.bit a b) (Nat.zero_le _)
    ⟨Sh.refl A, fun a b => by rw [if_neg (by omega)]⟩ ?_ (fun B h => h)
  intro i B _ hi ⟨sh, hB⟩
  refine (clear_row (sh.wf w) (by rw [sh.ncols]; exact h0) (by rw [sh.nrows]; exact hi)).mono ?_
  intro D ⟨sh', hD⟩
  refine ⟨sh.trans sh', fun a b => ?_⟩
  rw [hD, hB, sh.ncols]
  by_cases ha : a = i
  · subst ha
    by_cases hb : b < A.ncols
    · rw [if_pos ⟨rfl, hb⟩, if_pos ⟨by omega, hb⟩]
    · rw [if_neg (by omega), if_neg (by omega), if_neg (by omega)]
  · rw [if_neg (by omega)]
    by_cases hb : a < i ∧ b < A.ncols
    · rw [if_pos hb, if_pos ⟨by omega, hb.2⟩]
    · rw [if_neg hb, if_neg (by omega)]

theorem set_zero {A : Mzd} (w : A.Wf) (h0 : 0 < A.ncols) :
    Ok (mzd_set_ui A 0) fun B => Sh A B ∧ ∀ a b, B.bit a b = if a < A.nrows ∧ b < A.ncols then false else A.bit a b := by
  unfold mzd_set_ui
  exact Ok.bind (clear_all w h0) fun B h => (Ok.pure_iff _ _).2 h

theorem set_one {A : Mzd} (w : A.Wf) (h0 : 0 < A.ncols) :
    Ok (mzd_set_ui A 1) fun B => Sh A B ∧ ∀ a b, B.bit a b = if a < A.nrows ∧ b < A.ncols then decide (a = b) else A.bit a b := by
  unfold mzd_set_ui
  refine Ok.bind (clear_all w h0) fun B ⟨sh, hB⟩ => ?_
  rw [if_neg (by omega)]
  refine Ok.forUp (P := fun i D => Sh A D ∧ ∀ a b, D.bit a b = if a < A.nrows ∧ b < A.ncols then decide (a = b ∧ a < i) else A.bit a b)
    (Nat.zero_le _) ⟨sh, fun a b => ?_⟩ ?_ ?_
  · rw [hB]
    split
    · simp
    · rfl
  · intro i D _ hi ⟨sh', hD⟩
    rw [sh.nrows, sh.ncols] at hi
    refine (write_bit (sh'.wf w) (by rw [sh'.nrows]; omega) (by rw [sh'.ncols]; omega) true).mono ?_
    intro E ⟨sh'', hE⟩
    refine ⟨sh'.trans sh'', fun a b => ?_⟩
    rw [hE, hD]
    by_cases hab : a = i ∧ b = i
    · rw [if_pos hab, if_pos (by omega), decide_eq_true (by omega)]
    · rw [if_neg hab]
      split
      · rw [decide_eq_decide]; omega
      · rfl
  · intro D ⟨sh', hD⟩
    refine ⟨sh', fun a b => ?_⟩
    rw [hD]
    split
    · rw [decide_eq_decide, sh.nrows, sh.ncols]; omega
    · rfl

/-- `mzd_copy` copies the entries and leaves everything else in the target as it is. -/
theorem copy {N P : Mzd} (wN : N.Wf) (wP : P.Wf) (h0 : 0 < P.ncols) (hr : P.nrows ≤ N.nrows) (hc : P.ncols ≤ N.ncols) :
    Ok (mzd_copy N P) fun Q => Sh N Q ∧ ∀ a b, Q.bit a b = if a < P.nrows ∧ b < P.ncols then P.bit a b else N.bit a b := by
  unfold mzd_copy
  rw [if_neg (by omega)]
  have hw := width_pos h0
  have hwl : P.width ≤ N.width := by unfold Mzd.width; omega
  refine Ok.forUp (P := fun i Q => Sh N Q ∧ ∀ a b, Q.bit a b = if a < i ∧ b < P.ncols then P.bit a b else N.bit a b) (Nat.zero_le _)
    ⟨Sh.refl N, fun a b => by rw [if_neg (by omega)]⟩ ?_ (fun B h => h)
  intro i B _ hi ⟨sh, hB⟩
  refine Ok.bind (row_loop (fun j => P.word i j) (sh.wf wN) (i := i) (by rw [sh.nrows]; omega) (by rw [sh.width]; omega) fun j D _ hj _ _ => by
    rw [get_eq (wP.at hi (by omega)), C_ok_bind]) ?_
  intro D ⟨sh', hD⟩
  have shD := sh.trans sh'
  have hat := (shD.wf wN).at (i := i) (j := P.width - 1) (by rw [shD.nrows]; omega) (by rw [shD.width]; omega)
  rw [get_eq hat, C_ok_bind, get_eq (wP.at hi (by omega)), C_ok_bind, put_eq _ hat, Ok.ok_iff]
  refine ⟨shD.trans (Sh.set _ _ _ _), fun a b => ?_⟩
  rw [bit_set, bit_of_word hD, hD, if_neg (show ¬ (i = i ∧ 0 ≤ P.width - 1 ∧ P.width - 1 < P.width - 1) by omega)]
  by_cases ha : a = i
  · subst ha
    rcases Nat.lt_trichotomy (b / 64) (P.width - 1) with hb | hb | hb
    · rw [if_neg (by omega), if_pos ⟨rfl, by omega, hb⟩, if_pos ⟨by omega, lt_of_not_last hb⟩]
      rfl
    · rw [if_pos ⟨rfl, hb⟩, BitVec.getLsbD_or, BitVec.getLsbD_and, BitVec.getLsbD_and, BitVec.getLsbD_not, high_bit P hb h0]
      have h64 : b % 64 < 64 := Nat.mod_lt _ (by omega)
      have e1 : (B.word a (P.width - 1)).getLsbD (b % 64) = B.bit a b := by unfold Mzd.bit; rw [hb]
      have e2 : (P.word a (P.width - 1)).getLsbD (b % 64) = P.bit a b := by unfold Mzd.bit; rw [hb]
      rw [e1, e2, hB, if_neg (show ¬ (a < a ∧ b < P.ncols) by omega)]
      by_cases hc : b < P.ncols
      · rw [if_pos ⟨by omega, hc⟩]; simp [hc]
      · rw [if_neg (by omega)]; simp [hc, h64]
    · rw [if_neg (by omega), if_neg (by omega), if_neg (fun h => by have := lt_width h.2; omega), hB, if_neg (by omega)]
  · rw [if_neg (fun h => ha h.1), if_neg (fun h => ha h.1), hB]
    refine if_congr ⟨fun h => ⟨by omega, h.2⟩, fun h => ⟨by omega, h.2⟩⟩ rfl rfl

/-! ## Adding rows -/

/-- `mzd_combine` adds row `j` of `A` to row `i`. -/
theorem combine {M A : Mzd} (w : M.Wf) (wA : A.Wf) (h0 : 0 < M.ncols) (hc : A.ncols = M.ncols) {i j : Nat} (hi : i < M.nrows) (hj : j < A.nrows) :
    Ok (mzd_combine M i A j) fun N => Sh M N ∧ ∀ a b, N.bit a b = (M.bit a b ^^ (decide (a = i ∧ b < M.ncols) && A.bit j b)) := by
  unfold mzd_combine
  have hw := width_pos h0
  have hwA : A.width = M.width := by unfold Mzd.width; rw [hc]
  simp only []
  refine Ok.bind (row_loop (fun k => M.word i k ^^^ A.word j k) w hi (by omega) ?_) ?_
  · intro k N _ hk sh hN
    rw [get_eq ((sh.wf w).at (by rw [sh.nrows]; exact hi) (by rw [sh.width]; omega)), C_ok_bind, get_eq (wA.at hj (by omega)), C_ok_bind,
      hN, if_neg (by omega)]
  intro D ⟨sh, hD⟩
  have hat := (sh.wf w).at (i := i) (j := M.width - 1) (by rw [sh.nrows]; omega) (by rw [sh.width]; omega)
  rw [get_eq hat, C_ok_bind, get_eq (wA.at hj (by omega)), C_ok_bind, put_eq _ hat, Ok.ok_iff]
  refine ⟨sh.trans (Sh.set _ _ _ _), fun a b => ?_⟩
  rw [bit_set, bit_of_word hD, hD, if_neg (show ¬ (i = i ∧ 0 ≤ M.width - 1 ∧ M.width - 1 < M.width - 1) by omega)]
  by_cases ha : a = i
  · subst ha
    rcases Nat.lt_trichotomy (b / 64) (M.width - 1) with hb | hb | hb
    · rw [if_neg (by omega), if_pos ⟨rfl, by omega, hb⟩, decide_eq_true ⟨rfl, lt_of_not_last hb⟩, BitVec.getLsbD_xor]
      rfl
    · rw [if_pos ⟨rfl, hb⟩, BitVec.getLsbD_xor, BitVec.getLsbD_and, sh.high, high_bit M hb h0]
      have e1 : (M.word a (M.width - 1)).getLsbD (b % 64) = M.bit a b := by unfold Mzd.bit; rw [hb]
      have e2 : (A.word j (M.width - 1)).getLsbD (b % 64) = A.bit j b := by unfold Mzd.bit; rw [hb]
      rw [e1, e2]
      simp [Bool.and_comm]
    · rw [if_neg (by omega), if_neg (by omega), decide_eq_false (fun h => by have := lt_width h.2; omega)]
      simp
  · rw [if_neg (fun h => ha h.1), if_neg (fun h => ha h.1), decide_eq_false (fun h => ha h.1)]
    simp

/-- The sum of the rows `ts` in column `j`. -/
def rowsum (ts : List (Mzd × Nat)) (j : Nat) : Bool := ts.foldl (fun a p => a ^^ p.1.bit p.2 j) false

theorem foldl_xor (ts : List (Mzd × Nat)) (j : Nat) (a : Bool) : ts.foldl (fun a p => a ^^ p.1.bit p.2 j) a = (a ^^ rowsum ts j) := by
  unfold rowsum
  induction ts generalizing a with
  | nil => simp
  | cons p ts ih => rw [List.foldl_cons, List.foldl_cons, ih, ih (false ^^ _)]; simp [Bool.xor_assoc]

theorem combine_fold (ts : List (Mzd × Nat)) (b : Nat) (hts : ∀ p ∈ ts, p.1.Wf ∧ p.2 < p.1.nrows ∧ b < p.1.width) (a : Word) :
    ts.foldlM (fun a (p : Mzd × Nat) => do pure (a ^^^ (← p.1.get p.2 b))) a = (.ok (ts.foldl (fun a p => a ^^^ p.1.word p.2 b) a) : C Word) := by
  induction ts generalizing a with
  | nil => rfl
  | cons p ts ih =>
    rw [List.foldlM_cons, List.foldl_cons]
    obtain ⟨h1, h2, h3⟩ := hts p (List.mem_cons_self ..)
    rw [get_eq (h1.at h2 h3)]
    exact ih (fun q hq => hts q (List.mem_cons_of_mem _ hq)) _

theorem fold_bit (ts : List (Mzd × Nat)) (b c : Nat) (a : Word) (hc : c / 64 = b) :
    (ts.foldl (fun a p => a ^^^ p.1.word p.2 b) a).getLsbD (c % 64) = (a.getLsbD (c % 64) ^^ rowsum ts c) := by
  rw [← foldl_xor]
  induction ts generalizing a with
  | nil => rfl
  | cons p ts ih =>
    rw [List.foldl_cons, List.foldl_cons, ih, BitVec.getLsbD_xor]
    congr 2
    unfold Mzd.bit
    rw [hc]

/-- `_mzd_combine_n` adds rows of tables to row `r`, from word `block` on. -/
theorem combine_n {M : Mzd} (w : M.Wf) {r block wide : Nat} (hr : r < M.nrows) (hb : block + wide ≤ M.width) (ts : List (Mzd × Nat))
    (hts : ∀ p ∈ ts, p.1.Wf ∧ p.2 < p.1.nrows ∧ p.1.width = M.width) :
    Ok (mzd_combine_n M r block wide ts) fun N => Sh M N ∧ ∀ a b, N.bit a b =
      (M.bit a b ^^ (decide (a = r ∧ block ≤ b / 64 ∧ b / 64 < block + wide) && rowsum ts b)) := by
  unfold mzd_combine_n
  refine Ok.forUp (P := fun ii N => Sh M N ∧ ∀ a b, N.bit a b =
      (M.bit a b ^^ (decide (a = r ∧ block ≤ b / 64 ∧ b / 64 < block + ii) && rowsum ts b))) (Nat.zero_le _)
    ⟨Sh.refl M, fun a b => by rw [decide_eq_false (by omega)]; simp⟩ ?_ (fun B h => h)
  intro ii N _ hii ⟨sh, hN⟩
  have hat := (sh.wf w).at (i := r) (j := block + ii) (by rw [sh.nrows]; omega) (by rw [sh.width]; omega)
  rw [get_eq hat, C_ok_bind, combine_fold ts (block + ii) (fun p hp => ⟨(hts p hp).1, (hts p hp).2.1, by rw [(hts p hp).2.2]; omega⟩), C_ok_bind,
    put_eq _ hat, Ok.ok_iff]
  refine ⟨sh.trans (Sh.set _ _ _ _), fun a b => ?_⟩
  rw [bit_set]
  by_cases h : a = r ∧ b / 64 = block + ii
  · have e : (N.word r (block + ii)).getLsbD (b % 64) = N.bit r b := by unfold Mzd.bit; rw [h.2]
    rw [if_pos h, fold_bit _ _ _ _ h.2, e, hN, decide_eq_false (by omega), decide_eq_true (by omega), h.1]
    simp
  · rw [if_neg h, hN]
    congr 2
    rw [decide_eq_decide]
    omega

/-! ## Tables -/

theorem table_row {M T : Mzd} (wM : M.Wf) (wT : T.Wf) (hw : T.width = M.width) {c i rn : Nat} (hc : c < M.ncols) (hi : 0 < i)
    (hi' : i < T.nrows) (hrn : rn < M.nrows) :
    Ok (do
      let T ← T.put i (c / 64) (((← M.get rn (c / 64)) ^^^ (← T.get (i - 1) (c / 64))) &&&
        (if M.width - c / 64 ≠ 1 then rightMask (64 - c % 64) else rightMask (64 - c % 64) &&& leftMask (M.ncols % 64)))
      let T ← forUp 1 (M.width - c / 64 - 1) T fun j T => do
        T.put i (c / 64 + j) ((← M.get rn (c / 64 + j)) ^^^ (← T.get (i - 1) (c / 64 + j)))
      (if 1 < M.width - c / 64 then do
        T.put i (c / 64 + (M.width - c / 64 - 1))
          (((← M.get rn (c / 64 + (M.width - c / 64 - 1))) ^^^ (← T.get (i - 1) (c / 64 + (M.width - c / 64 - 1)))) &&& leftMask (M.ncols % 64))
        else pure T)) fun N => Sh T N ∧ ∀ a b, N.bit a b = if a = i ∧ c / 64 ≤ b / 64 ∧ b / 64 < M.width then
          (decide (c ≤ b ∧ b < M.ncols) && (M.bit rn b ^^ T.bit (i - 1) b)) else T.bit a b := by
  have hcw := lt_width hc
  have h0 : 0 < M.ncols := by omega
  have tail : ∀ N, Sh T N → ∀ j, j < M.width → (i < N.mem.rows ∧ N.off + j < N.mem.cols) ∧ (i - 1 < N.mem.rows ∧ N.off + j < N.mem.cols) :=
    fun N sh j hj => ⟨(sh.wf wT).at (by rw [sh.nrows]; exact hi') (by rw [sh.width]; omega),
      (sh.wf wT).at (by rw [sh.nrows]; omega) (by rw [sh.width]; omega)⟩
  have t0 := tail T (Sh.refl T) _ hcw
  rw [get_eq (wM.at hrn hcw), C_ok_bind, get_eq t0.2, C_ok_bind, put_eq _ t0.1, C_ok_bind]
  generalize hx : (M.word rn (c / 64) ^^^ T.word (i - 1) (c / 64)) &&&
        (if M.width - c / 64 ≠ 1 then rightMask (64 - c % 64) else rightMask (64 - c % 64) &&& leftMask (M.ncols % 64)) = x
  have hxb : ∀ b, b / 64 = c / 64 → x.getLsbD (b % 64) = (decide (c ≤ b ∧ b < M.ncols) && (M.bit rn b ^^ T.bit (i - 1) b)) := by
    intro b hb
    have h64 : b % 64 < 64 := Nat.mod_lt _ (by omega)
    have e : (M.word rn (c / 64) ^^^ T.word (i - 1) (c / 64)).getLsbD (b % 64) = (M.bit rn b ^^ T.bit (i - 1) b) := by
      rw [BitVec.getLsbD_xor]; unfold Mzd.bit; rw [hb]
    rw [← hx, BitVec.getLsbD_and, e, Bool.and_comm]
    congr 1
    split
    · rw [rightMask_bit _ _ (Nat.mod_lt _ (by omega)), decide_eq_decide]
      have : b < M.ncols := lt_of_not_last (by omega)
      omega
    · rw [BitVec.getLsbD_and, rightMask_bit _ _ (Nat.mod_lt _ (by omega))]
      have := high_bit M (j := b) (by omega) h0
      unfold Mzd.high at this
      rw [this, ← Bool.decide_and, decide_eq_decide]
      omega
  have sh1 := Sh.set T i (c / 64) x
  generalize hT1 : T.set i (c / 64) x = T1 at sh1
  have hT1b : ∀ a b, T1.word a b = if a = i ∧ b = c / 64 then x else T.word a b := fun a b => by rw [← hT1, word_set]
  refine Ok.bind (P := fun N => Sh T1 N ∧ ∀ a b, N.word a b =
      if a = i ∧ c / 64 + 1 ≤ b ∧ b < c / 64 + (M.width - c / 64 - 1) then M.word rn b ^^^ T.word (i - 1) b else T1.word a b) ?_ ?_
  · by_cases hw1 : 1 ≤ M.width - c / 64 - 1
    · refine Ok.forUp (P := fun j N => Sh T1 N ∧ ∀ a b, N.word a b =
          if a = i ∧ c / 64 + 1 ≤ b ∧ b < c / 64 + j then M.word rn b ^^^ T.word (i - 1) b else T1.word a b) hw1
        ⟨Sh.refl _, fun a b => by rw [if_neg (by omega)]⟩ ?_ (fun N h => h)
      intro j N hj1 hj2 ⟨sh, hN⟩
      have t := tail N (sh1.trans sh) (c / 64 + j) (by omega)
      rw [get_eq (wM.at hrn (by omega)), C_ok_bind, get_eq t.2, C_ok_bind, put_eq _ t.1, Ok.ok_iff]
      refine ⟨sh.trans (Sh.set _ _ _ _), fun a b => ?_⟩
      rw [word_set, hN, hN, hT1b, hT1b, if_neg (show ¬ (i - 1 = i ∧ _) by omega), if_neg (show ¬ (i - 1 = i ∧ _) by omega)]
      by_cases hab : a = i ∧ b = c / 64 + j
      · rw [if_pos hab, if_pos (by omega), hab.2]
      · rw [if_neg hab]
        exact if_congr (by omega) rfl rfl
    · have : ∀ f : Nat → Mzd → C Mzd, forUp 1 (M.width - c / 64 - 1) T1 f = pure T1 := fun f => by
        unfold forUp; rw [show M.width - c / 64 - 1 - 1 = 0 by omega]; rfl
      rw [this, Ok.pure_iff]
      exact ⟨Sh.refl _, fun a b => by rw [if_neg (by omega)]⟩
  intro N ⟨sh, hN⟩
  by_cases hw1 : 1 < M.width - c / 64
  · rw [if_pos hw1]
    have t := tail N (sh1.trans sh) (c / 64 + (M.width - c / 64 - 1)) (by omega)
    rw [get_eq (wM.at hrn (by omega)), C_ok_bind, get_eq t.2, C_ok_bind, put_eq _ t.1, Ok.ok_iff]
    refine ⟨(sh1.trans sh).trans (Sh.set _ _ _ _), fun a b => ?_⟩
    rw [bit_set, hN, hT1b, if_neg (show ¬ (i - 1 = i ∧ _) by omega), if_neg (show ¬ (i - 1 = i ∧ _) by omega)]
    have h64 : b % 64 < 64 := Nat.mod_lt _ (by omega)
    have hlast : c / 64 + (M.width - c / 64 - 1) = M.width - 1 := by omega
    rw [hlast]
    have hNb : N.bit a b = (N.word a (b / 64)).getLsbD (b % 64) := rfl
    by_cases ha : a = i
    · subst ha
      by_cases hb : b / 64 = M.width - 1
      · rw [if_pos ⟨rfl, hb⟩, if_pos (by omega), BitVec.getLsbD_and]
        have := high_bit M (j := b) hb h0
        unfold Mzd.high at this
        rw [this, BitVec.getLsbD_xor, Bool.and_comm]
        have e : decide (c ≤ b ∧ b < M.ncols) = decide (b < M.ncols) := by rw [decide_eq_decide]; omega
        rw [e]
        unfold Mzd.bit
        rw [hb]
      · rw [if_neg (by omega), hNb, hN]
        by_cases hm : c / 64 + 1 ≤ b / 64 ∧ b / 64 < M.width - 1
        · rw [if_pos ⟨rfl, by omega⟩, if_pos (by omega), decide_eq_true ⟨by omega, lt_of_not_last (by omega)⟩, BitVec.getLsbD_xor]
          rfl
        · rw [if_neg (by omega), hT1b]
          by_cases hh : b / 64 = c / 64
          · rw [if_pos ⟨rfl, hh⟩, if_pos (by omega)]
            exact hxb b hh
          · rw [if_neg (by omega), if_neg (by omega)]
            rfl
    · rw [if_neg (fun h => ha h.1), if_neg (fun h => ha h.1), hNb, hN, if_neg (fun h => ha h.1), hT1b, if_neg (fun h => ha h.1)]
      rfl
  · rw [if_neg hw1, Ok.pure_iff]
    refine ⟨sh1.trans sh, fun a b => ?_⟩
    have hNb : N.bit a b = (N.word a (b / 64)).getLsbD (b % 64) := rfl
    rw [hNb, hN, if_neg (by omega), hT1b]
    by_cases h : a = i ∧ b / 64 = c / 64
    · rw [if_pos h, if_pos (by omega)]
      exact hxb b h.2
    · rw [if_neg h, if_neg (by omega)]
      rfl

/-- The tables of linear combinations: row `L[x]` is the sum of the rows `r + l` of `M` for which bit `l` of `x` is set, with the
columns before `c` cleared. -/
structure IsTab (M : Mzd) (r c k : Nat) (t : Tab) : Prop where
  size : 2 ^ k ≤ t.L.size
  lt : ∀ x < 2 ^ k, t.L.cell x < 2 ^ k
  row : ∀ x < 2 ^ k, ∀ j, c / 64 ≤ j / 64 → j / 64 < M.width → t.T.bit (t.L.cell x) j =
    (decide (c ≤ j ∧ j < M.ncols) && xsum k fun l => x.testBit l && M.bit (r + l) j)

/-- A table that can be filled: its row 0 is zero from word `b` on. -/
structure CanTab (M : Mzd) (k b : Nat) (t : Tab) : Prop where
  wf : t.T.Wf
  width : t.T.width = M.width
  rows : 2 ^ k ≤ t.T.nrows
  size : 2 ^ k ≤ t.L.size
  zero : ∀ j, b ≤ j / 64 → j / 64 < M.width → t.T.bit 0 j = false

theorem make_table {M : Mzd} (wM : M.Wf) {r c k b : Nat} {t : Tab} (ht : CanTab M k b t) (hb : b ≤ c / 64) (hk : k ≤ 16) (hr : r + k ≤ M.nrows)
    (hc : c < M.ncols) : Ok (mzd_make_table M r c k t) fun t' => IsTab M r c k t' ∧ ∀ k', CanTab M k' b t → CanTab M k' b t' := by
  unfold mzd_make_table
  simp only []
  have h1k : 1 ≤ 2 ^ k := Nat.one_le_two_pow
  rw [Ok.bind_iff, Mem.Ok_put]
  refine ⟨Nat.lt_of_lt_of_le h1k ht.size, ?_⟩
  refine Ok.forUp (P := fun i (u : Tab) => Sh t.T u.T ∧ u.L.size = t.L.size ∧ (∀ j, u.T.bit 0 j = t.T.bit 0 j) ∧ ∀ s < i, u.L.cell (gray s) = s ∧
      ∀ j, c / 64 ≤ j / 64 → j / 64 < M.width → u.T.bit s j = (decide (c ≤ j ∧ j < M.ncols) && xsum k fun l => (gray s).testBit l && M.bit (r + l) j))
    h1k ⟨Sh.refl _, rfl, fun _ => rfl, ?_⟩ ?_ ?_
  · intro s hs
    obtain rfl : s = 0 := by omega
    refine ⟨rfl, fun j hj1 hj2 => ?_⟩
    rw [xsum_congr (g := fun _ => false) (fun l _ => by simp [gray]), xsum_false, ht.zero j (by omega) hj2]
    simp
  · intro i u hi1 hi2 ⟨sh, hL, hz, hu⟩
    have hk0 : 1 ≤ k := by
      by_contra hh
      rw [show k = 0 by omega] at hi2
      simp at hi2
      omega
    have hcb : m4ri_codebook k = m4ri_build_code k := if_pos ⟨hk0, hk⟩
    rw [hcb]
    refine Ok.bind (build_code k) ?_
    intro code ⟨⟨ho, ho'⟩, hn, hn'⟩
    rw [Ok.bind_iff, Mem.Ok_get]
    refine ⟨by rw [hn]; omega, ?_⟩
    rw [Ok.bind_iff, Mem.Ok_get]
    refine ⟨by rw [ho]; exact hi2, ?_⟩
    rw [ho' i hi2, Ok.bind_iff, Mem.Ok_put]
    refine ⟨by rw [hL]; exact Nat.lt_of_lt_of_le (gray_lt hi2) ht.size, ?_⟩
    obtain ⟨hs1, hs2⟩ := hn' i hi1 hi2
    rw [if_neg (show ¬ M.nrows ≤ r + code.2.cell (i - 1) by omega)]
    have hrow := table_row wM (sh.wf ht.wf) (by rw [sh.width, ht.width]) hc hi1 (show i < u.T.nrows by rw [sh.nrows]; exact Nat.lt_of_lt_of_le hi2 ht.rows)
      (show r + code.2.cell (i - 1) < M.nrows by omega)
    simp only [Ok.bind_iff] at hrow ⊢
    refine hrow.mono ?_
    intro x h
    refine h.mono ?_
    intro y h
    refine h.mono ?_
    intro z h
    refine h.mono ?_
    intro v h
    refine h.mono ?_
    intro N ⟨shN, hN⟩
    rw [Ok.pure_iff]
    refine ⟨sh.trans shN, hL, fun j => ?_, fun s hs => ⟨?_, fun j hj1 hj2 => ?_⟩⟩
    · simp only []
      rw [hN, if_neg (by omega), hz]
    · simp only []
      by_cases hsi : s = i
      · rw [hsi, if_pos rfl]
      · rw [if_neg (fun h => hsi (gray_inj h)), (hu s (by omega)).1]
    · simp only []
      rw [hN]
      by_cases hsi : s = i
      · rw [if_pos ⟨hsi, hj1, hj2⟩, (hu (i - 1) (by omega)).2 j hj1 hj2, hsi, hs2, xsum_flip hs1]
        cases decide (c ≤ j ∧ j < M.ncols) <;> simp [Bool.xor_comm]
      · rw [if_neg (fun h => hsi h.1), (hu s (by omega)).2 j hj1 hj2]
  · intro u ⟨sh, hL, hz, hu⟩
    refine ⟨⟨by rw [hL]; exact ht.size, fun x hx => ?_, fun x hx j hj1 hj2 => ?_⟩, fun k' h => ⟨sh.wf h.wf, by rw [sh.width, h.width], by rw [sh.nrows]; exact h.rows,
      by rw [hL]; exact h.size, fun j hj1 hj2 => by rw [hz]; exact h.zero j hj1 hj2⟩⟩
    · obtain ⟨s, hs, rfl⟩ := gray_surj hx
      rw [(hu s hs).1]; exact hs
    · obtain ⟨s, hs, rfl⟩ := gray_surj hx
      rw [(hu s hs).1]
      exact (hu s hs).2 j hj1 hj2

end WB.m4w
