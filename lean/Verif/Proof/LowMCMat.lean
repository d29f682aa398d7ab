import Verif.Proof.LowMCBit
import Verif.Proof.Simple

/-!
# `RandbitMatM…` of `LowMCMethod_text.cpp`: the bits land where they belong
-/
namespace WB.lowmc

theorem LM_lift {α β : Type} {m : C α} {f : α → LM β} {st : BitVec 80} {a : α} (h : m = .ok a) :
    ((liftM m : LM α) >>= f) st = f a st := by
  subst h
  rfl

section
variable {fuel : Nat} {b : Nat → Bool} {s : Nat → BitVec 80}
  (hb : ∀ i, getrandbit fuel (s i) = .ok (b i, s (i + 1)))
include hb

/-! ## Rows of one word -/

/-- The word of the bits `b c, b (c + 1), …`, `m` of them. -/
def rowAcc {w n : Nat} (I : Vector (BitVec w) n) (b : Nat → Bool) (c : Nat) : Nat → BitVec w
  | 0 => 0#_
  | m + 1 => rowAcc I b c m ^^^ (if b (c + m) then (if h : m < n then I[m] else 0#_) else 0#_)

omit hb in
theorem rowAcc_bit {w n : Nat} (I : Vector (BitVec w) n) (hw : n ≤ w)
    (hI : ∀ j (h : j < n), ∀ t < w, I[j].getLsbD t = decide (t = n - 1 - j)) (b : Nat → Bool) (c m j : Nat)
    (hj : j < n) (hm : m ≤ n) : (rowAcc I b c m).getLsbD (n - 1 - j) = (decide (j < m) && b (c + j)) := by
  induction m with
  | zero => simp [rowAcc]
  | succ m ih =>
    rw [rowAcc, BitVec.getLsbD_xor, ih (by omega), dif_pos (show m < n by omega)]
    by_cases hjm : j = m
    · subst hjm
      rw [decide_eq_false (by omega), decide_eq_true (by omega)]
      cases b (c + j)
      · simp
      · rw [if_pos rfl, hI _ _ _ (by omega)]; simp
    · have h0 : (if b (c + m) then I[m] else 0#_).getLsbD (n - 1 - j) = false := by
        split
        · rw [hI _ _ _ (by omega), decide_eq_false (by omega)]
        · simp
      rw [h0, Bool.xor_false]
      by_cases hlt : j < m
      · rw [decide_eq_true hlt, decide_eq_true (by omega)]
      · rw [decide_eq_false hlt, decide_eq_false (by omega)]

omit hb in
/-- Bits outside the `n` low ones are zero. -/
theorem rowAcc_high {w n : Nat} (I : Vector (BitVec w) n)
    (hI : ∀ j (h : j < n), ∀ t < w, I[j].getLsbD t = decide (t = n - 1 - j)) (b : Nat → Bool) (c m t : Nat)
    (ht : n ≤ t) : (rowAcc I b c m).getLsbD t = false := by
  induction m with
  | zero => simp [rowAcc]
  | succ m ih =>
    rw [rowAcc, BitVec.getLsbD_xor, ih, Bool.false_xor]
    split
    · split
      · rename_i hmn
        by_cases htw : t < w
        · rw [hI _ _ _ htw, decide_eq_false (by omega)]
        · exact BitVec.getLsbD_of_ge _ _ (by omega)
      · simp
    · simp

theorem row_loop {w n N : Nat} (I : Vector (BitVec w) n) (A : Vector (BitVec w) N) (i c : Nat) (hi : i < N) :
    (forUp 0 n A fun j Mat => do
      if ← getrandbit fuel then wr Mat i ((← rd Mat i) ^^^ (← rd I j)) else pure Mat : LM (Vector (BitVec w) N))
      (s c) = .ok (A.set i (A[i] ^^^ rowAcc I b c n), s (c + n)) := by
  have := forUp_LM (fun j Mat => do
      if ← getrandbit fuel then wr Mat i ((← rd Mat i) ^^^ (← rd I j)) else pure Mat : Nat → _ → LM (Vector (BitVec w) N))
    (fun j => A.set i (A[i] ^^^ rowAcc I b c j)) (fun j => s (c + j)) 0 n (Nat.zero_le _) (fun j _ hj => by
      rw [LM_bind (hb (c + j))]
      cases hbj : b (c + j)
      · rw [if_neg (by simp)]
        show Except.ok _ = _
        rw [rowAcc, hbj, if_neg (by simp), BitVec.xor_zero]
        rfl
      · rw [if_pos rfl, LM_lift (rd_ok _ _ hi), LM_lift (rd_ok _ _ hj)]
        rw [wr_ok _ _ _ hi]
        show Except.ok _ = _
        rw [rowAcc, hbj, if_pos rfl, dif_pos hj]
        simp [Vector.set_set, BitVec.xor_assoc]
        rfl)
  simp only [rowAcc, BitVec.xor_zero, Vector.set_getElem_self] at this
  exact this

/-- The outer loop. -/
theorem outer_loop {R : Type} {n : Nat} (f : Nat → Vector R n → LM (Vector R n)) (g : Nat → R → R) (c k : Nat)
    (hf : ∀ i (h : i < n), ∀ A : Vector R n, f i A (s (k + c * i)) =
      .ok (A.set i (g i A[i]), s (k + c * (i + 1)))) (A : Vector R n) :
    forUp 0 n A f (s k) = .ok (Vector.ofFn fun i => g i A[i], s (k + c * n)) := by
  have := forUp_LM f (fun m => Vector.ofFn fun i : Fin n => if i.val < m then g i A[i] else A[i])
    (fun m => s (k + c * m)) 0 n (Nat.zero_le _) (fun i _ hi => by
      rw [hf i hi]
      congr 2
      apply Vector.ext
      intro r hr
      rw [Vector.getElem_set, Vector.getElem_ofFn (f := fun i_1 : Fin n => if i_1.val < i + 1 then g i_1 A[i_1] else A[i_1])]
      by_cases hir : i = r
      · subst hir
        simp
      · rw [if_neg hir, Vector.getElem_ofFn]
        show (if r < i then _ else _) = (if r < i + 1 then _ else _)
        by_cases h1 : r < i
        · rw [if_pos h1, if_pos (by omega)]
        · rw [if_neg h1, if_neg (by omega)])
  have h0 : (Vector.ofFn fun i : Fin n => if i.val < 0 then g i A[i] else A[i]) = A := by
    apply Vector.ext
    intro r hr
    simp
  have h1 : (Vector.ofFn fun i : Fin n => if i.val < n then g i A[i] else A[i]) = Vector.ofFn fun i => g i A[i] := by
    congr 1
    funext i
    rw [if_pos i.2]
  rw [h1] at this
  simp only [Nat.mul_zero, Nat.add_zero] at this
  rw [h0] at this
  exact this

/-! ## Rows of several words -/

theorem bitInto_run {l n : Nat} (A : Vector (Vector (BitVec 64) l) n) (i j k c : Nat) (hi : i < n) (hj : j < 64)
    (hk : k < l) : bitInto fuel A i j k (s c) =
      .ok (A.set i (A[i].set k (A[i][k] ^^^ if b c then identM64[j] else 0#_)), s (c + 1)) := by
  unfold bitInto
  rw [LM_bind (hb c)]
  cases b c
  · rw [if_neg (by simp), if_neg (by simp), BitVec.xor_zero, Vector.set_getElem_self, Vector.set_getElem_self]
    rfl
  · rw [if_pos rfl, if_pos rfl, LM_lift (rd2_ok _ _ _ hi hk), LM_lift (rd_ok _ _ hj)]
    rw [wr2_ok _ _ _ _ hi hk]
    rfl

/-- The words of the bits `b c, b (c + 1), …`, which are distributed over `l` words in turn. -/
def limbAcc (b : Nat → Bool) (l c k : Nat) : Nat → BitVec 64
  | 0 => 0#_
  | m + 1 => limbAcc b l c k m ^^^ (if b (c + l * m + k) then (if h : m < 64 then identM64[m] else 0#_) else 0#_)

omit hb in
theorem limbAcc_row (b : Nat → Bool) (l c k m : Nat) :
    limbAcc b l c k m = rowAcc identM64 (fun q => b (c + l * q + k)) 0 m := by
  induction m with
  | zero => rfl
  | succ m ih => rw [limbAcc, rowAcc, ih]; simp only [Nat.zero_add]

theorem limb_loop {l n : Nat} (f : Nat → Vector (Vector (BitVec 64) l) n → LM (Vector (Vector (BitVec 64) l) n))
    (i c : Nat) (hi : i < n)
    (hf : ∀ j (hj : j < 64), ∀ A : Vector (Vector (BitVec 64) l) n, f j A (s (c + l * j)) =
      .ok (A.set i (Vector.ofFn fun k => A[i][k] ^^^ if b (c + l * j + k.val) then identM64[j] else 0#_),
        s (c + l * (j + 1)))) (A : Vector (Vector (BitVec 64) l) n) :
    forUp 0 64 A f (s c) =
      .ok (A.set i (Vector.ofFn fun k => A[i][k] ^^^ limbAcc b l c k.val 64), s (c + l * 64)) := by
  have := forUp_LM f (fun m => A.set i (Vector.ofFn fun k => A[i][k] ^^^ limbAcc b l c k.val m))
    (fun m => s (c + l * m)) 0 64 (Nat.zero_le _) (fun j _ hj => by
      rw [hf j hj]
      congr 2
      rw [Vector.set_set]
      congr 1
      apply Vector.ext
      intro k hk
      rw [Vector.getElem_ofFn, Vector.getElem_ofFn, limbAcc, dif_pos hj, ← BitVec.xor_assoc]
      congr 1
      simp)
  have h0 : A.set i (Vector.ofFn fun k => A[i][k] ^^^ limbAcc b l c k.val 0) = A := by
    have : (Vector.ofFn fun k => A[i][k] ^^^ limbAcc b l c k.val 0) = A[i] := by
      apply Vector.ext
      intro k hk
      rw [Vector.getElem_ofFn, limbAcc, BitVec.xor_zero]
      rfl
    rw [this, Vector.set_getElem_self]
  rw [h0] at this
  exact this

theorem two_run {n : Nat} (i : Nat) (hi : i < n) (c j : Nat) (hj : j < 64) (A : Vector (Vector (BitVec 64) 2) n) :
    (do let A ← bitInto fuel A i j 0
        bitInto fuel A i j 1 : LM (Vector (Vector (BitVec 64) 2) n)) (s (c + 2 * j)) =
      .ok (A.set i (Vector.ofFn fun k => A[i][k] ^^^ if b (c + 2 * j + k.val) then identM64[j] else 0#_),
        s (c + 2 * (j + 1))) := by
  rw [LM_bind (bitInto_run hb A i j 0 _ hi hj (by omega)), bitInto_run hb _ i j 1 _ hi hj (by omega)]
  congr 2
  rw [Vector.set_set]
  congr 1
  apply Vector.ext
  intro k hk
  rw [Vector.getElem_ofFn]
  interval_cases k <;> simp

theorem four_run {n : Nat} (i : Nat) (hi : i < n) (c j : Nat) (hj : j < 64) (A : Vector (Vector (BitVec 64) 4) n) :
    (do let A ← bitInto fuel A i j 0
        let A ← bitInto fuel A i j 1
        let A ← bitInto fuel A i j 2
        bitInto fuel A i j 3 : LM (Vector (Vector (BitVec 64) 4) n)) (s (c + 4 * j)) =
      .ok (A.set i (Vector.ofFn fun k => A[i][k] ^^^ if b (c + 4 * j + k.val) then identM64[j] else 0#_),
        s (c + 4 * (j + 1))) := by
  rw [LM_bind (bitInto_run hb A i j 0 _ hi hj (by omega)), LM_bind (bitInto_run hb _ i j 1 _ hi hj (by omega)),
    LM_bind (bitInto_run hb _ i j 2 _ hi hj (by omega)), bitInto_run hb _ i j 3 _ hi hj (by omega)]
  congr 2
  rw [Vector.set_set, Vector.set_set, Vector.set_set]
  congr 1
  apply Vector.ext
  intro k hk
  rw [Vector.getElem_ofFn]
  interval_cases k <;> simp

end

/-! ## Drawing until a matrix is accepted -/

theorem whileL_run {α : Type} {rand : α → LM α} {cond : α → C Bool} {bad : α → Bool} {s : Nat → BitVec 80}
    {c k : Nat} {T : Nat → α} (hr : ∀ q, rand (T q) (s (k + c * q)) = .ok (T (q + 1), s (k + c * (q + 1))))
    (hc : ∀ a, cond a = .ok (bad a)) (tries q : Nat) :
    (∃ m < tries, (∀ j < m, bad (T (q + j)) = true) ∧ bad (T (q + m)) = false ∧
      whileL cond rand tries (T q) (s (k + c * q)) = .ok (T (q + m), s (k + c * (q + m)))) ∨
    ((∀ j < tries, bad (T (q + j)) = true) ∧
      whileL cond rand tries (T q) (s (k + c * q)) = .error .diverge) := by
  induction tries generalizing q with
  | zero => right; exact ⟨fun j hj => by omega, rfl⟩
  | succ n ih =>
    unfold whileL
    rw [LM_lift (hc _)]
    cases hbq : bad (T q)
    · left
      exact ⟨0, by omega, fun j hj => by omega, hbq, rfl⟩
    · rw [if_pos rfl, LM_bind (hr q)]
      rcases ih (q + 1) with ⟨m, hm, h1, h2, h3⟩ | ⟨h1, h2⟩
      · left
        refine ⟨m + 1, by omega, ?_, ?_, ?_⟩
        · intro j hj
          cases j with
          | zero => exact hbq
          | succ j => rw [show q + (j + 1) = q + 1 + j by omega]; exact h1 j (by omega)
        · rw [show q + (m + 1) = q + 1 + m by omega]; exact h2
        · rw [show q + (m + 1) = q + 1 + m by omega]; exact h3
      · right
        refine ⟨?_, h2⟩
        intro j hj
        cases j with
        | zero => exact hbq
        | succ j => rw [show q + (j + 1) = q + 1 + j by omega]; exact h1 j (by omega)

/-- The first accepted matrix, or no end. -/
theorem draw_run {α : Type} {rand : α → LM α} {cond : α → C Bool} {bad : α → Bool} {s : Nat → BitVec 80}
    {c k : Nat} {T : Nat → α} (hr : ∀ q, rand (T q) (s (k + c * q)) = .ok (T (q + 1), s (k + c * (q + 1))))
    (hc : ∀ a, cond a = .ok (bad a)) (copy : α → α → C α) (hcp : ∀ a a', copy a a' = .ok a) (a0 : α) (tries : Nat) :
    (∃ m, 1 ≤ m ∧ m ≤ tries ∧ (∀ q, 1 ≤ q → q < m → bad (T q) = true) ∧ bad (T m) = false ∧
      (do let t ← rand (T 0)
          let t ← whileL cond rand tries t
          copy t a0 : LM α) (s k) = .ok (T m, s (k + c * m))) ∨
    ((∀ q, 1 ≤ q → q ≤ tries → bad (T q) = true) ∧
      (do let t ← rand (T 0)
          let t ← whileL cond rand tries t
          copy t a0 : LM α) (s k) = .error .diverge) := by
  have h0 := hr 0
  rw [Nat.mul_zero, Nat.add_zero, Nat.zero_add] at h0
  rcases whileL_run hr hc tries 1 with ⟨m, hm, h1, h2, h3⟩ | ⟨h1, h2⟩
  · left
    refine ⟨1 + m, by omega, by omega, ?_, h2, ?_⟩
    · intro q hq hqm
      have := h1 (q - 1) (by omega)
      rwa [show 1 + (q - 1) = q by omega] at this
    · rw [LM_bind h0, LM_bind h3, hcp]
      rfl
  · right
    refine ⟨?_, ?_⟩
    · intro q hq hqt
      have := h1 (q - 1) (by omega)
      rwa [show 1 + (q - 1) = q by omega] at this
    · rw [LM_bind h0, LM_bind_err h2]

end WB.lowmc
