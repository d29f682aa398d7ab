import Verif.Proof.M4riKernel
import Verif.Prop.C118

/-!
# C121 — the kernel of a matrix from a PLUQ factorisation in M4RI (`/repo/test/github1_M4RI/src/m4ri/solve.c`)

`kernelOf` is `mzd_kernel_left_pluq` after the factorisation, which is given as C118 delivers it: `MA` holds `L` below and `U` on and above the diagonal, for the rank `k`.
-/
namespace WB.m4w

open WB.cmp (Mem)

variable {m n k : Nat} {MA : Mzd} {Q : Mem Nat} {F : Matrix (Fin m) (Fin n) (ZMod 2)} {L : Matrix (Fin m) (Fin k) (ZMod 2)} {U : Matrix (Fin k) (Fin n) (ZMod 2)}

/-- The columns of `X` are a basis of the solutions of `A * y = 0`. -/
def Basis {d : Nat} (A : Matrix (Fin m) (Fin n) (ZMod 2)) (X : Matrix (Fin n) (Fin d) (ZMod 2)) : Prop :=
  A * X = 0 ∧ ∀ {c : Nat} (Y : Matrix (Fin n) (Fin c) (ZMod 2)), A * Y = 0 → ∃! Z : Matrix (Fin d) (Fin c) (ZMod 2), Y = X * Z

/-- What the result `res` has to be: nothing if only zero is a solution, and otherwise a matrix whose columns are a basis of the solutions. -/
def KernelOk (A : Matrix (Fin m) (Fin n) (ZMod 2)) (k : Nat) (res : C (Option Mzd)) : Prop :=
  (k = n → res = .ok none ∧ ∀ {c : Nat} (Y : Matrix (Fin n) (Fin c) (ZMod 2)), A * Y = 0 → Y = 0) ∧
  (k < n → ∃ R, ∃ X : Matrix (Fin n) (Fin (n - k)) (ZMod 2), res = .ok (some R) ∧ Rep R X ∧ R.Clean ∧ Basis A X)

/-- C121, full statement: for every cutoff below `2^29`. -/
def C121_statement : Prop := ∀ (junk : Nat → Word) (mb : Mzd → Mzd → C Mzd) (cutoff : Nat) (e : List Nat → TrsmEnv) (p : Nat → Nat) {m n k : Nat} {MA : Mzd} {Q : Mem Nat}
  {F : Matrix (Fin m) (Fin n) (ZMod 2)} {L : Matrix (Fin m) (Fin k) (ZMod 2)} {U : Matrix (Fin k) (Fin n) (ZMod 2)}, cutoff < 2 ^ 29 → k ≤ 2 ^ 24 → n < 2 ^ 29 → Rep MA F → MA.Clean → k ≤ m → k ≤ n →
  (∀ i < m, i ≤ p i ∧ p i < m) → (Q.size = n ∧ ∀ i < n, i ≤ Q.cell i ∧ Q.cell i < n) →
  (∀ a j, L a j = if (j : Nat) < a then bitF (MA.bit a j) else if (j : Nat) = a then 1 else 0) →
  (∀ i b, U i b = if (i : Nat) < b then bitF (MA.bit i b) else if (i : Nat) = b then 1 else 0) →
  KernelOk ((PMat p m m).transpose * (L * U) * PMat Q.cell n n) k (kernelOf (mzd_transpose_any junk mb) 512 cutoff e MA k Q)

/-- C121, what holds: the full statement, when the rank is at most `bs` (512 in this configuration) or the cutoff is a multiple of 64 and the rank is one as well. -/
theorem C121_kernel_partial (junk : Nat → Word) (mb : Mzd → Mzd → C Mzd) (bs cutoff : Nat) (e : List Nat → TrsmEnv) (p : Nat → Nat) (hbs : 256 ≤ bs) (hk : k ≤ 2 ^ 24) (hn' : n < 2 ^ 29)
    (hA : Rep MA F) (cA : MA.Clean) (hm : k ≤ m) (hn : k ≤ n) (hp : ∀ i < m, i ≤ p i ∧ p i < m) (hQ : Q.size = n ∧ ∀ i < n, i ≤ Q.cell i ∧ Q.cell i < n)
    (hL : ∀ a j, L a j = if (j : Nat) < a then bitF (MA.bit a j) else if (j : Nat) = a then 1 else 0)
    (hU : ∀ i b, U i b = if (i : Nat) < b then bitF (MA.bit i b) else if (i : Nat) = b then 1 else 0)
    (hbig : k ≤ bs ∨ cutoff % 64 = 0 ∧ cutoff < 2 ^ 29 ∧ k % 64 = 0) :
    KernelOk ((PMat p m m).transpose * (L * U) * PMat Q.cell n n) k (kernelOf (mzd_transpose_any junk mb) bs cutoff e MA k Q) := by
  have uL := factor_lower hA hm hn hL
  have uU := factor_upper hA hm hn hU
  have iP := C109_matrix_inverse (n := m) (v := p) (len := m) fun i hi => ⟨hi, (hp i hi).2⟩
  have iQ := C109_matrix_inverse (n := n) (v := Q.cell) (len := n) fun i hi => ⟨hi, (hQ.2 i hi).2⟩
  have injL : ∀ {c : Nat} {X : Matrix (Fin k) (Fin c) (ZMod 2)}, L * X = 0 → X = 0 := fun {c X} h => by
    refine (C114_unique (F.submatrix (Fin.castLE hm) (Fin.castLE hn))).1 ?_
    rw [← uL, Matrix.mul_zero]
    ext i j
    exact congrFun (congrFun h ⟨i, by omega⟩) j
  have injU : ∀ {c : Nat} {X X' : Matrix (Fin k) (Fin c) (ZMod 2)}, U.submatrix id (Fin.castLE hn) * X = U.submatrix id (Fin.castLE hn) * X' → X = X' := fun h => by
    rw [uU] at h
    exact (C114_unique _).2 h
  refine ⟨fun hkn => ⟨?_, fun {c} Y hY => ?_⟩, fun hkn => ?_⟩
  · unfold kernelOf
    rw [if_pos (by rw [hA.ncols]; exact hkn)]
    rfl
  · have core := kernel_core (d := 0) (n := n) (k := k) (by omega) (P := PMat p m m) (Q := PMat Q.cell n n) (L := L) (U := U) (U1 := U.submatrix id (Fin.castLE hn)) (U2 := fun _ j => j.elim0)
      (Z := fun _ j => j.elim0) (C := fun _ j => j.elim0) iP.2 iQ injL injU (fun _ _ => rfl) (fun _ j => j.elim0) (by ext i j; exact j.elim0) (fun _ j => j.elim0) (fun _ j => j.elim0)
    obtain ⟨X, hX, _⟩ := core.2 Y hY
    rw [hX]
    ext i j
    rw [Matrix.mul_apply]
    exact Finset.sum_eq_zero fun x _ => x.elim0
  · unfold kernelOf
    rw [hA.ncols, if_neg (by omega)]
    simp only []
    have hd : n = k + (n - k) := by omega
    have h0 : Rep (mzd_init n (n - k)) (0 : Matrix (Fin n) (Fin (n - k)) (ZMod 2)) := ⟨init_wf _ _, rfl, rfl, fun i j => by rw [init_bit]; rfl⟩
    have hx0 : 0 + k ≤ n := by omega
    have w0 := rows_rep h0 hx0
    have s1 := on_rows h0 (init_clean _ _) hx0 (f := fun W => fillKernel MA k W) (p := fun Y => ∀ (i : Fin k) (j : Fin (n - k)), Y i j = U i ⟨k + j, by omega⟩) (by
      refine (fill_kernel_ok hA.wf w0.wf (by rw [hA.nrows]; exact hm) w0.nrows (by rw [w0.ncols, hA.ncols]; omega)).mono ?_
      intro N ⟨sh, hN⟩
      refine ⟨fun i j => bitF (N.bit i j), ⟨sh, fun _ _ => rfl, fun a b hab => ?_⟩, fun i j => ?_⟩
      · rw [hN, w0.ncols, decide_eq_false hab, Bool.false_and, Bool.xor_false]
      · show bitF (N.bit i j) = _
        rw [hN, w0.ncols, decide_eq_true ⟨i.2, j.2⟩, Bool.true_and, window_bit _ rfl, init_bit, Bool.false_xor, hU, if_pos (show (i : Nat) < k + j by omega)])
    simp only [Nat.zero_add] at s1
    obtain ⟨M1, e1, B1, Y, h1, c1, _, hY, a1, r1⟩ := s1
    simp only [e1, C_ok_bind]
    have w1 := rows_rep h1 hx0
    have cLU : bs < k → (mzd_window MA 0 0 k k).Clean := fun h => by
      refine window_clean cA rfl (by omega) (by omega) (by rw [hA.nrows]; exact hm) ?_
      omega
    have s2 := on_rows h1 c1 hx0 (f := fun W => mzd_trsm_upper_left (mzd_transpose_any junk mb) bs cutoff e (mzd_window MA 0 0 k k) W)
      (p := fun Z => unitUpper (F.submatrix (Fin.castLE hm) (Fin.castLE hn)) * Z = rowsOf B1 0 k hx0)
      (upper_wr junk mb bs cutoff e hbs (by omega) hk (by omega) (by omega) (corner_rep hA hm hn) cLU w1 fun _ => rows_clean h1 c1 hx0)
    simp only [Nat.zero_add] at s2
    obtain ⟨M2, e2, B2, Z, h2, c2, _, eZ, a2, r2⟩ := s2
    simp only [e2, C_ok_bind]
    obtain ⟨M3, e3, sh3, b3⟩ := ones_ok h2.wf (k := k) (d := n - k) (by rw [h2.nrows]; exact hd) h2.ncols
    simp only [e3, C_ok_bind]
    have h3 : Rep M3 (fun (i : Fin n) (j : Fin (n - k)) => bitF (M3.bit i j)) := ⟨sh3.wf h2.wf, sh3.nrows.trans h2.nrows, sh3.ncols.trans h2.ncols, fun _ _ => rfl⟩
    obtain ⟨M4, e4, h4, o4⟩ := C109_left_trans (P := Q) h3 (by
      rw [hQ.1, Nat.min_self]
      exact hQ.2)
    rw [hQ.1, Nat.min_self] at h4
    simp only [e4, C_ok_bind]
    refine ⟨M4, _, rfl, h4, fun i hi j g1 g2 => ?_, kernel_core hd (U1 := U.submatrix id (Fin.castLE hn)) (U2 := fun i j => U i ⟨k + j, by omega⟩) (Z := Z) iP.2 iQ injL injU (fun _ _ => rfl)
      (fun _ _ => rfl) ?_ (fun i j => ?_) fun i j => ?_⟩
    · rw [h4.ncols] at g1
      rw [h4.nrows] at hi
      have hw : M4.width = M2.width := by unfold Mzd.width; rw [h4.ncols, h2.ncols]
      rw [o4 i j g1, b3, if_neg (by omega)]
      exact c2 i (by rw [h2.nrows]; exact hi) j (by rw [h2.ncols]; exact g1) (by rw [← hw]; exact g2)
    · rw [uU, eZ]
      ext i j
      show B1 ⟨0 + i, by omega⟩ j = U i ⟨k + j, by omega⟩
      rw [← hY, ← a1]
      congr 1
      exact Fin.ext (by show 0 + (i : Nat) = i; omega)
    · show Z i j = bitF (M3.bit i j)
      rw [b3, if_neg (by omega), ← a2]
      exact (h2.bit ⟨i, by omega⟩ j).symm
    · show (1 : Matrix (Fin (n - k)) (Fin (n - k)) (ZMod 2)) i j = bitF (M3.bit (k + i) j)
      rw [b3, Matrix.one_apply]
      by_cases hij : i = j
      · subst hij
        rw [if_pos rfl, if_pos ⟨by omega, rfl, i.2⟩]
        rfl
      · rw [if_neg hij, if_neg (fun h => hij (Fin.ext (by omega)))]
        have e5 := h2.bit ⟨k + i, by omega⟩ j
        rw [r2 _ _ (.inr (by show k ≤ k + (i : Nat); omega)), r1 _ _ (.inr (by show k ≤ k + (i : Nat); omega))] at e5
        exact e5.symm

/-- C121: the factorisation of C118 and then this procedure: the kernel of `A`, for every `A` of rank at most `bs`. -/
theorem C121_naive_partial (junk : Nat → Word) (mb : Mzd → Mzd → C Mzd) (bs cutoff : Nat) (e : List Nat → TrsmEnv) {M : Mzd} {P : Mem Nat} {A : Matrix (Fin m) (Fin n) (ZMod 2)} (hbs : 256 ≤ bs)
    (hbs' : bs ≤ 2 ^ 24) (hn' : n < 2 ^ 29) (hM : Rep M A) (cM : M.Clean) (hP : P.size = m) (hQ : Q.size = n) (hr : A.rank ≤ bs) :
    KernelOk A A.rank (do
      let s ← _mzd_pluq_naive M P Q
      kernelOf (mzd_transpose_any junk mb) bs cutoff e s.1.A s.2 s.1.Q) := by
  obtain ⟨N, P', Q', k, e1, hk, hP', hQ', ⟨F, hF, L, U, hA, hL, hU, _, hz⟩, out⟩ := C118_pluq hM hP hQ
  have hkm : k ≤ m := by rw [hk]; exact (Matrix.rank_le_card_height A).trans (by simp)
  have hkn : k ≤ n := by rw [hk]; exact (Matrix.rank_le_card_width A).trans (by simp)
  have cN : N.Clean := fun i hi j g1 g2 => by
    rw [hF.ncols] at g1
    rw [out i j g1]
    refine cM i (by rw [hM.nrows]; rw [hF.nrows] at hi; exact hi) j (by rw [hM.ncols]; exact g1) ?_
    have : M.width = N.width := by unfold Mzd.width; rw [hF.ncols, hM.ncols]
    rw [this]; exact g2
  have := C121_kernel_partial junk mb bs cutoff e P'.cell hbs (by omega) hn' hF cN hkm hkn hP'.2 hQ' hL hU (.inl (by omega))
  rw [e1, C_ok_bind]
  rw [← hA, hk] at this
  rw [hk]
  exact this

/-- C121, what goes wrong: with rank 1000, 1512 to 2023 columns and the cutoff 40, `mzd_trsm_upper_left` accesses memory outside of the matrices (C114). -/
theorem C121_cutoff_violated (junk : Nat → Word) (mb : Mzd → Mzd → C Mzd) (e : List Nat → TrsmEnv) (hn : 1512 ≤ n) (hn' : n < 2024) (hm : 1000 ≤ m) (hA : Rep MA F) :
    kernelOf (mzd_transpose_any junk mb) 512 40 e MA 1000 Q = .error .oob := by
  unfold kernelOf
  rw [hA.ncols, if_neg (by omega)]
  simp only []
  have h0 : Rep (mzd_init n (n - 1000)) (0 : Matrix (Fin n) (Fin (n - 1000)) (ZMod 2)) := ⟨init_wf _ _, rfl, rfl, fun i j => by rw [init_bit]; rfl⟩
  have hx0 : 0 + 1000 ≤ n := by omega
  have w0 := rows_rep h0 hx0
  have s1 := on_rows h0 (init_clean _ _) hx0 (f := fun W => fillKernel MA 1000 W) (p := fun _ => True) (by
    refine (fill_kernel_ok hA.wf w0.wf (by rw [hA.nrows]; exact hm) w0.nrows (by rw [w0.ncols, hA.ncols]; omega)).mono ?_
    intro N ⟨sh, hN⟩
    refine ⟨fun i j => bitF (N.bit i j), ⟨sh, fun _ _ => rfl, fun a b hab => ?_⟩, trivial⟩
    rw [hN, w0.ncols, decide_eq_false hab, Bool.false_and, Bool.xor_false])
  obtain ⟨M1, e1, B1, Y, h1, c1, _⟩ := s1
  simp only [Nat.zero_add] at e1
  have w1 := rows_rep h1 hx0
  simp only [Nat.zero_add] at w1
  simp only [e1, C_ok_bind]
  rw [onWindow_error (C114_cutoff_violated junk mb e (by omega) (by omega) (corner_rep hA hm (by omega)) w1)]
  rfl

/-- C121: the full statement is false. -/
theorem C121_violated : ¬ C121_statement := by
  intro h
  have hA : Rep (mzd_init 1000 1512) (0 : Matrix (Fin 1000) (Fin 1512) (ZMod 2)) := ⟨init_wf _ _, rfl, rfl, fun i j => by rw [init_bit]; rfl⟩
  have g := (h (fun _ => 0) (fun D _ => .ok D) 40 (fun _ => ⟨true, 2, fun _ => ⟨fun _ _ => 0, true, 2⟩⟩) (fun i => i) (by omega) (show 1000 ≤ 2 ^ 24 by omega) (by omega) hA (init_clean _ _) (by omega)
    (by omega) (fun i hi => ⟨le_refl _, hi⟩) (Q := ⟨1512, fun i => i⟩) ⟨rfl, fun i hi => ⟨le_refl _, hi⟩⟩ (fun _ _ => rfl) (fun _ _ => rfl)).2 (by omega)
  obtain ⟨R, X, h1, _⟩ := g
  rw [C121_cutoff_violated _ _ _ (by omega) (by omega) (by omega) hA] at h1
  exact absurd h1 (by simp)

/-- The kernel of the matrix of C118 with three rows and four columns. -/
def exKernel : C (Option (List Word)) := do
  let s ← _mzd_pluq_naive exPluq ⟨3, fun _ => 7⟩ ⟨4, fun _ => 7⟩
  let t ← kernelOf (mzd_transpose_any (fun _ => 0) fun D _ => .ok D) 512 0 (fun _ => ⟨true, 2, fun _ => ⟨fun _ _ => 0, true, 2⟩⟩) s.1.A s.2 s.1.Q
  pure (t.map fun R => (List.range 4).map fun i => R.word i 0)

/-- Its equations are `x3 = 0` and `x1 = x2`: the first column is `(0, 1, 1, 0)`, the second one `(1, 0, 0, 0)`. -/
example : exKernel = .ok (some [2#64, 1#64, 1#64, 0#64]) := by
  with_unfolding_all rfl

/-- The theorem applies to it. -/
example (junk : Nat → Word) (mb : Mzd → Mzd → C Mzd) (e : List Nat → TrsmEnv) : KernelOk (blk exPluq 0 0 3 4) (blk exPluq 0 0 3 4).rank (do
      let s ← _mzd_pluq_naive exPluq (⟨3, fun _ => 7⟩ : Mem Nat) ⟨4, fun _ => 7⟩
      kernelOf (mzd_transpose_any junk mb) 512 0 e s.1.A s.2 s.1.Q) := by
  have hM : Rep exPluq (blk exPluq 0 0 3 4) := rep_blk ⟨by decide, by decide⟩
  have d1 : ∀ i < 3, ∀ j < 64, 4 ≤ j → exPluq.bit i j = false := by decide
  exact C121_naive_partial junk mb 512 0 e (by decide) (by decide) (by decide) hM (fun i hi j g1 g2 => d1 i hi j g2 g1) rfl rfl ((Matrix.rank_le_card_height _).trans (by simp))

end WB.m4w
