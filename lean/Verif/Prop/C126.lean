import Verif.Prop.C120
import Verif.Prop.C121
import Verif.Prop.C125

/-!
# C126 — M4RI's solution of linear systems and its kernel, from the matrix itself (`/repo/test/github1_M4RI/src/m4ri/solve.c`)
-/
namespace WB.m4w

open WB.cmp (Mem)

variable {m n r c : Nat} {M MB : Mzd} {A : Matrix (Fin m) (Fin n) (ZMod 2)} {B : Matrix (Fin r) (Fin c) (ZMod 2)}

/-- C126, full statement: `mzd_solve_left(A, B)` solves `A * X = B` or reports that there is no solution (`Solves`, C120), and `mzd_kernel_left_pluq(A)` returns a basis of the solutions of
`A * y = 0` (`KernelOk`, C121), for every procedure `ple` that delivers PLE factorisations and every cutoff below `2^29`. -/
def C126_statement : Prop := ∀ (ple : Mzd → Mem Nat → Mem Nat → C (Ple × Nat)) (l1 : Nat) (junk' : Nat → Nat) (junk : Nat → Word) (mb : Mzd → Mzd → C Mzd) (dflt cutoff : Nat) (e : SolveEnv)
  (e' : List Nat → TrsmEnv) (check : Bool) {m n r c : Nat} {M MB : Mzd} {A : Matrix (Fin m) (Fin n) (ZMod 2)} {B : Matrix (Fin r) (Fin c) (ZMod 2)}, FactorsPerm ple → asked dflt cutoff < 2 ^ 29 →
  A.rank ≤ 2 ^ 24 → m < 2 ^ 29 → n < 2 ^ 29 → c < 2 ^ 29 → Rep M A → M.Clean → Rep MB B → MB.Clean → ∀ (hmr : m ≤ r) (hnr : n ≤ r),
  (∃ N ret X, mzd_solve_left ple l1 junk' (mzd_transpose_any junk mb) 512 dflt cutoff e check M MB = .ok (N, ret) ∧ Rep N X ∧
    Solves check A (B.submatrix (Fin.castLE hmr) id) hnr X ret ∧ ∀ a b, c ≤ b → N.bit a b = MB.bit a b) ∧
  KernelOk A A.rank (mzd_kernel_left_pluq ple l1 junk' (mzd_transpose_any junk mb) 512 cutoff e' M)

/-- A matrix with the same unused bits is clean as well. -/
theorem clean_same {N : Mzd} (hM : Rep M A) (cM : M.Clean) (h1 : N.nrows = m) (h2 : N.ncols = n) (out : ∀ a b, n ≤ b → N.bit a b = M.bit a b) : N.Clean := fun i hi j g1 g2 => by
  rw [h2] at g1
  rw [out i j g1]
  refine cM i (by rw [hM.nrows]; rw [h1] at hi; exact hi) j (by rw [hM.ncols]; exact g1) ?_
  have : M.width = N.width := by unfold Mzd.width; rw [h2, hM.ncols]
  rw [this]; exact g2

/-- C126, what holds for systems: the full statement, when there are unknowns and right-hand sides, the rank is at most `bs` (512 in this configuration) or the cutoff is a multiple of 64 and
the rank is one as well or the number of unknowns, and the test does not run into the products of C108 that leave the matrices. -/
theorem C126_solve_partial (ple : Mzd → Mem Nat → Mem Nat → C (Ple × Nat)) (l1 : Nat) (junk' : Nat → Nat) (junk : Nat → Word) (mb : Mzd → Mzd → C Mzd) (bs dflt cutoff : Nat) (e : SolveEnv)
    (check : Bool) (hple : FactorsPerm ple) (hbs : 256 ≤ bs) (hcut : asked dflt cutoff < 2 ^ 29) (hk : A.rank ≤ 2 ^ 24) (hm' : m < 2 ^ 29) (hn0 : 0 < n) (h0 : 0 < c) (hc : c < 2 ^ 29)
    (hM : Rep M A) (cM : M.Clean) (hB : Rep MB B) (cB : MB.Clean) (hmr : m ≤ r) (hnr : n ≤ r)
    (hbig : A.rank ≤ bs ∨ cutoff % 64 = 0 ∧ cutoff < 2 ^ 29 ∧ (A.rank % 64 = 0 ∨ A.rank = n)) (hbad : check = true → asked dflt cutoff < 128 → ¬ Crashes (m - A.rank) A.rank c) :
    ∃ N ret X, mzd_solve_left ple l1 junk' (mzd_transpose_any junk mb) bs dflt cutoff e check M MB = .ok (N, ret) ∧ Rep N X ∧
      Solves check A (B.submatrix (Fin.castLE hmr) id) hnr X ret ∧ ∀ a b, c ≤ b → N.bit a b = MB.bit a b := by
  obtain ⟨P, eP, sP, _⟩ := C109_init junk' m
  obtain ⟨Q, eQ, sQ, _⟩ := C109_init junk' n
  obtain ⟨N, P', Q', _, e1, h, out⟩ := C125_pluq_partial ple l1 hple hn0 hM sP sQ
  have cN := clean_same hM cM h.nrows h.ncols out
  obtain ⟨L, U, hA, hL, hU⟩ := h.factors
  have hF : Rep N (fun (a : Fin m) (b : Fin n) => bitF (N.bit a b)) := ⟨h.wf, h.nrows, h.ncols, fun _ _ => rfl⟩
  have key := C120_solve_partial junk mb bs dflt cutoff e check hbs hcut hk hm' h0 hc hF cN hB cB h.rows h.cols hmr hnr h.permP h.permQ hL hU
    (fun a b g1 g2 => by rw [h.rest a g1 a.2 b g2 b.2]; rfl) hbig hbad
  rw [← hA] at key
  unfold mzd_solve_left _mzd_solve_left
  rw [if_neg (by rw [hB.nrows, hM.ncols]; omega), hM.nrows, hM.ncols]
  simp only [eP, eQ, e1, C_ok_bind]
  exact key

/-- C126, what holds for the kernel: the full statement, when there are columns and the rank is at most `bs` or the cutoff and the rank are multiples of 64. -/
theorem C126_kernel_partial (ple : Mzd → Mem Nat → Mem Nat → C (Ple × Nat)) (l1 : Nat) (junk' : Nat → Nat) (junk : Nat → Word) (mb : Mzd → Mzd → C Mzd) (bs cutoff : Nat)
    (e : List Nat → TrsmEnv) (hple : FactorsPerm ple) (hbs : 256 ≤ bs) (hk : A.rank ≤ 2 ^ 24) (hn0 : 0 < n) (hn' : n < 2 ^ 29) (hM : Rep M A) (cM : M.Clean)
    (hbig : A.rank ≤ bs ∨ cutoff % 64 = 0 ∧ cutoff < 2 ^ 29 ∧ A.rank % 64 = 0) :
    KernelOk A A.rank (mzd_kernel_left_pluq ple l1 junk' (mzd_transpose_any junk mb) bs cutoff e M) := by
  obtain ⟨P, eP, sP, _⟩ := C109_init junk' m
  obtain ⟨Q, eQ, sQ, _⟩ := C109_init junk' n
  obtain ⟨N, P', Q', e1, _, h, out⟩ := C125_pluq_partial ple l1 hple hn0 hM sP sQ
  have cN := clean_same hM cM h.nrows h.ncols out
  obtain ⟨L, U, hA, hL, hU⟩ := h.factors
  have hF : Rep N (fun (a : Fin m) (b : Fin n) => bitF (N.bit a b)) := ⟨h.wf, h.nrows, h.ncols, fun _ _ => rfl⟩
  have key := C121_kernel_partial junk mb bs cutoff e P'.cell hbs hk hn' hF cN h.rows h.cols h.permP.2 h.permQ hL hU hbig
  rw [← hA] at key
  unfold mzd_kernel_left_pluq
  rw [hM.nrows, hM.ncols]
  simp only [eP, eQ, e1, C_ok_bind]
  exact key

/-- C126: with fewer rows on the right than unknowns the program aborts. -/
theorem C126_size (ple : Mzd → Mem Nat → Mem Nat → C (Ple × Nat)) (l1 : Nat) (junk' : Nat → Nat) (tr : Bool → Mzd → C Mzd) (bs dflt cutoff : Nat) (e : SolveEnv) (check : Bool)
    (h : MB.nrows < M.ncols) : mzd_solve_left ple l1 junk' tr bs dflt cutoff e check M MB = .error .abort := by
  unfold mzd_solve_left
  rw [if_pos h]

/-- C126, what goes wrong: without unknowns both divide by zero. -/
theorem C126_no_columns_violated (ple : Mzd → Mem Nat → Mem Nat → C (Ple × Nat)) (l1 : Nat) (junk' : Nat → Nat) (tr : Bool → Mzd → C Mzd) (bs dflt cutoff : Nat) (e : SolveEnv)
    (e' : List Nat → TrsmEnv) (check : Bool) (hple : FactorsPerm ple) {A : Matrix (Fin m) (Fin 0) (ZMod 2)} (hM : Rep M A) :
    mzd_solve_left ple l1 junk' tr bs dflt cutoff e check M MB = .error .divZero ∧ mzd_kernel_left_pluq ple l1 junk' tr bs cutoff e' M = .error .divZero := by
  obtain ⟨P, eP, sP, _⟩ := C109_init junk' m
  obtain ⟨Q, eQ, sQ, _⟩ := C109_init junk' 0
  have h := C125_no_columns_violated ple l1 hple hM sP sQ
  have h' := h
  unfold mzd_pluq at h'
  rw [if_neg (by rw [sP, hM.nrows]; simp), if_neg (by rw [sQ, hM.ncols]; simp)] at h'
  unfold mzd_solve_left _mzd_solve_left mzd_kernel_left_pluq
  rw [if_neg (by rw [hM.ncols]; omega), hM.nrows, hM.ncols]
  simp only [eP, eQ, C_ok_bind, h, h']
  exact ⟨rfl, rfl⟩

/-- C126: the full statement is false. -/
theorem C126_violated : ¬ C126_statement := by
  intro h
  have hM : Rep (mzd_init 2 0) (0 : Matrix (Fin 2) (Fin 0) (ZMod 2)) := ⟨init_wf _ _, rfl, rfl, fun _ j => j.elim0⟩
  have hB : Rep (mzd_init 2 1) (0 : Matrix (Fin 2) (Fin 1) (ZMod 2)) := ⟨init_wf _ _, rfl, rfl, fun i j => by rw [init_bit]; rfl⟩
  obtain ⟨⟨N, ret, X, h1, _⟩, _⟩ := h _mzd_ple_naive 32768 (fun _ => 0) (fun _ => 0) (fun D _ => .ok D) 2048 0 exEnv (fun _ => ⟨true, 2, fun _ => ⟨fun _ _ => 0, true, 2⟩⟩) true C125_naive_factors
    (by decide) ((Matrix.rank_le_width _).trans (by decide)) (by decide) (by decide) (by decide) hM (init_clean _ _) hB (init_clean _ _) (le_refl 2) (by decide)
  rw [(C126_no_columns_violated _ _ _ _ _ _ _ _ (fun _ => ⟨true, 2, fun _ => ⟨fun _ _ => 0, true, 2⟩⟩) _ C125_naive_factors hM).1] at h1
  exact absurd h1 (by simp)

/-- Three equations with four unknowns, the third one the sum of the others, as in C120; the factorisation is not given. -/
def exWhole (check : Bool) (b0 b1 b2 b3 : Word) : C (Int × List Word) := do
  let t ← mzd_solve_left _mzd_ple_naive 32768 (fun _ => 7) (mzd_transpose_any (fun _ => 0) fun D _ => .ok D) 512 2048 0 exEnv check exPluq (exRight b0 b1 b2 b3)
  pure (t.2, (List.range 4).map fun i => t.1.word i 0)

/-- A right-hand side with a solution and one without. -/
example : (exWhole true 1 3 2 3).map (·.1) = .ok 0 ∧ (exWhole true 1 3 3 3).map (·.1) = .ok (-1) := by
  refine ⟨?_, ?_⟩ <;> with_unfolding_all rfl

/-- The theorems apply to it. -/
example (junk : Nat → Word) (mb : Mzd → Mzd → C Mzd) (e : SolveEnv) (e' : List Nat → TrsmEnv) (check : Bool) :
    (∃ N ret X, mzd_solve_left _mzd_ple_naive 32768 (fun _ => 7) (mzd_transpose_any junk mb) 512 2048 0 e check exPluq (exRight 1 3 2 3) = .ok (N, ret) ∧ Rep N X ∧
      Solves (n := 4) (r := 4) check (blk exPluq 0 0 3 4) ((blk (exRight 1 3 2 3) 0 0 4 2).submatrix (Fin.castLE (by decide : 3 ≤ 4)) id) (le_refl 4) X ret) ∧
    KernelOk (blk exPluq 0 0 3 4) (blk exPluq 0 0 3 4).rank (mzd_kernel_left_pluq _mzd_ple_naive 32768 (fun _ => 7) (mzd_transpose_any junk mb) 512 0 e' exPluq) := by
  have hM : Rep exPluq (blk exPluq 0 0 3 4) := rep_blk ⟨by decide, by decide⟩
  have hB : Rep (exRight 1 3 2 3) (blk (exRight 1 3 2 3) 0 0 4 2) := rep_blk ⟨by decide, by decide⟩
  have d1 : ∀ i < 3, ∀ j < 64, 4 ≤ j → exPluq.bit i j = false := by decide
  have d2 : ∀ i < 4, ∀ j < 64, 2 ≤ j → (exRight 1 3 2 3).bit i j = false := by decide
  have hr : (blk exPluq 0 0 3 4).rank ≤ 3 := Matrix.rank_le_height _
  obtain ⟨N, ret, X, h1, h2, h3, _⟩ := C126_solve_partial _mzd_ple_naive 32768 (fun _ => 7) junk mb 512 2048 0 e check C125_naive_factors (by decide) (by decide) (hr.trans (by decide)) (by decide)
    (by decide) (by decide) (by decide) hM (fun i hi j g1 g2 => d1 i hi j g2 g1) hB (fun i hi j g1 g2 => d2 i hi j g2 g1) (by decide) (le_refl 4) (.inl (hr.trans (by decide)))
    (fun _ h => absurd h (by decide))
  exact ⟨⟨N, ret, X, h1, h2, h3⟩, C126_kernel_partial _mzd_ple_naive 32768 (fun _ => 7) junk mb 512 0 e' C125_naive_factors (by decide) (hr.trans (by decide)) (by decide) (by decide) hM
    (fun i hi j g1 g2 => d1 i hi j g2 g1) (.inl (hr.trans (by decide)))⟩

end WB.m4w
