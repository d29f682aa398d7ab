import Verif.Proof.M4riTri
import Verif.Proof.M4riPack

/-!
# C124 — triangular parts of matrices of M4RI (`/repo/test/github1_M4RI/src/m4ri/mzd.c`, `mzd_extract_u` and `mzd_extract_l`)
-/
namespace WB.m4w

open WB.cmp (Mem)

variable {m n : Nat} {M D : Mzd} {A : Matrix (Fin m) (Fin n) (ZMod 2)}

/-- The part of `A` on and above the diagonal, in a square matrix. -/
def upperPart (A : Matrix (Fin m) (Fin n) (ZMod 2)) : Matrix (Fin (min m n)) (Fin (min m n)) (ZMod 2) := fun i j => if i ≤ j then A ⟨i, by omega⟩ ⟨j, by omega⟩ else 0

/-- The part of `A` on and below the diagonal, in a square matrix. -/
def lowerPart (A : Matrix (Fin m) (Fin n) (ZMod 2)) : Matrix (Fin (min m n)) (Fin (min m n)) (ZMod 2) := fun i j => if j ≤ i then A ⟨i, by omega⟩ ⟨j, by omega⟩ else 0

/-- C124, full statement: both functions return the triangular part of `A`, in a new matrix or in the one that is given. -/
def C124_statement : Prop := ∀ {m n : Nat} {M : Mzd} {A : Matrix (Fin m) (Fin n) (ZMod 2)}, Rep M A → ∀ U : Option Mzd, (∀ D, U = some D → D.Wf ∧ D.nrows = min m n ∧ D.ncols = min m n) →
  (∃ N, mzd_extract_u U M = .ok N ∧ Rep N (upperPart A)) ∧ ∃ N, mzd_extract_l U M = .ok N ∧ Rep N (lowerPart A)

theorem tri_base_new (hM : Rep M A) : Ok (triBase none M) fun N => Sh (mzd_init (min m n) (min m n)) N ∧ ∀ a b, N.bit a b = (decide (a < min m n ∧ b < min m n) && M.bit a b) := by
  unfold triBase
  have := submatrix_spec hM.wf (sr := 0) (sc := 0) (n := min m n) (m := min m n) (by rw [hM.nrows]; omega) (by rw [hM.ncols]; omega) (.inl rfl)
  simp only [Nat.zero_add] at this
  rw [hM.nrows, hM.ncols]
  exact this

/-- C124: a new matrix is the upper triangular part; its unused bits are zero. -/
theorem C124_upper_partial (hM : Rep M A) : ∃ N, mzd_extract_u none M = .ok N ∧ Rep N (upperPart A) ∧ N.Clean := by
  obtain ⟨U, eU, sh, hU⟩ := tri_base_new hM
  obtain ⟨N, eN, shN, hN⟩ := extract_u_loop (sh.wf (init_wf _ _)) (sh.nrows.trans sh.ncols.symm)
  have hn : U.nrows = min m n := sh.nrows
  have sh2 := sh.trans shN
  refine ⟨N, ?_, ⟨sh2.wf (init_wf _ _), sh2.nrows, sh2.ncols, fun i j => ?_⟩, fun i hi j hj _ => ?_⟩
  · unfold mzd_extract_u
    rw [eU, C_ok_bind]
    exact eN
  · rw [hN, hU, hn]
    show _ = if i ≤ j then A ⟨i, _⟩ ⟨j, _⟩ else 0
    by_cases h : i ≤ j
    · have h' : (i : Nat) ≤ j := h
      rw [if_pos h, if_neg (by omega), decide_eq_true ⟨i.2, j.2⟩, Bool.true_and]
      exact hM.bit ⟨i, by omega⟩ ⟨j, by omega⟩
    · have h' : (j : Nat) < i := not_le.1 h
      rw [if_neg h, if_pos ⟨i.2, h'⟩]; rfl
  · have hc : N.ncols = min m n := sh2.ncols
    rw [hN, hU, decide_eq_false (show ¬ (i < min m n ∧ j < min m n) by omega), Bool.false_and, ite_self]

/-- C124: a new matrix is the lower triangular part; its unused bits are zero. -/
theorem C124_lower_partial (hM : Rep M A) : ∃ N, mzd_extract_l none M = .ok N ∧ Rep N (lowerPart A) ∧ N.Clean := by
  obtain ⟨U, eU, sh, hU⟩ := tri_base_new hM
  obtain ⟨N, eN, shN, hN⟩ := extract_l_loop (sh.wf (init_wf _ _)) (sh.nrows.trans sh.ncols.symm)
  have hn : U.nrows = min m n := sh.nrows
  have hw : U.width = (min m n + 63) / 64 := sh.width
  have sh2 := sh.trans shN
  refine ⟨N, ?_, ⟨sh2.wf (init_wf _ _), sh2.nrows, sh2.ncols, fun i j => ?_⟩, fun i hi j hj _ => ?_⟩
  · unfold mzd_extract_l
    rw [eU, C_ok_bind]
    exact eN
  · rw [hN, hU, hn, hw]
    show _ = if j ≤ i then A ⟨i, _⟩ ⟨j, _⟩ else 0
    have := i.2
    have := j.2
    by_cases h : j ≤ i
    · have h' : (j : Nat) ≤ i := h
      rw [if_pos h, if_neg (by omega), decide_eq_true ⟨i.2, j.2⟩, Bool.true_and]
      exact hM.bit ⟨i, by omega⟩ ⟨j, by omega⟩
    · have h' : (i : Nat) < j := not_le.1 h
      rw [if_neg h, if_pos (by omega)]; rfl
  · have hc : N.ncols = min m n := sh2.ncols
    rw [hN, hU, decide_eq_false (show ¬ (i < min m n ∧ j < min m n) by omega), Bool.false_and, ite_self]

/-- C124: together with a diagonal of ones both parts determine a square matrix: their sum is the matrix and its diagonal. -/
theorem C124_sum (A : Matrix (Fin n) (Fin n) (ZMod 2)) (i j : Fin n) (hi : (i : Nat) < min n n) (hj : (j : Nat) < min n n) :
    upperPart A ⟨i, hi⟩ ⟨j, hj⟩ + lowerPart A ⟨i, hi⟩ ⟨j, hj⟩ = if i = j then 0 else A i j := by
  show (if (i : Nat) ≤ j then A i j else 0) + (if (j : Nat) ≤ i then A i j else 0) = _
  rcases lt_trichotomy (i : Nat) j with h | h | h
  · rw [if_pos h.le, if_neg (by omega), if_neg (fun e => by rw [e] at h; omega), add_zero]
  · rw [if_pos h.le, if_pos (by omega), if_pos (Fin.ext h), CharTwo.add_self_eq_zero]
  · rw [if_neg (by omega), if_pos h.le, if_neg (fun e => by rw [e] at h; omega), zero_add]

/-- C124, what goes wrong: a matrix `D` that is given keeps the upper triangular part of its own old contents; `A` is not read. -/
theorem C124_given_upper_violated (hM : Rep M A) (w : D.Wf) (h1 : D.nrows = min m n) (h2 : D.ncols = min m n) :
    ∃ N, mzd_extract_u (some D) M = .ok N ∧ Sh D N ∧ ∀ a b, N.bit a b = if a < min m n ∧ b < a then false else D.bit a b := by
  obtain ⟨N, eN, shN, hN⟩ := extract_u_loop w (h1.trans h2.symm)
  refine ⟨N, ?_, shN, fun a b => by rw [hN, h1]⟩
  unfold mzd_extract_u triBase
  dsimp only
  rw [if_pos (by rw [hM.nrows, hM.ncols]; exact ⟨h1, h2⟩)]
  exact eN

/-- C124, what goes wrong: the same for the lower triangular part; moreover the bits behind the last column are cleared in all rows but the last one, also if `D` is a window and they belong
to another matrix. -/
theorem C124_given_lower_violated (hM : Rep M A) (w : D.Wf) (h1 : D.nrows = min m n) (h2 : D.ncols = min m n) :
    ∃ N, mzd_extract_l (some D) M = .ok N ∧ Sh D N ∧ ∀ a b, N.bit a b = if a + 1 < min m n ∧ a < b ∧ b < 64 * D.width then false else D.bit a b := by
  obtain ⟨N, eN, shN, hN⟩ := extract_l_loop w (h1.trans h2.symm)
  refine ⟨N, ?_, shN, fun a b => by rw [hN, h1]⟩
  unfold mzd_extract_l triBase
  dsimp only
  rw [if_pos (by rw [hM.nrows, hM.ncols]; exact ⟨h1, h2⟩)]
  exact eN

theorem C124_violated : ¬ C124_statement := by
  intro h
  have hM : Rep (pack 70 70 fun _ _ => true) (fun _ _ => 1 : Matrix (Fin 70) (Fin 70) (ZMod 2)) := pack_rep fun _ _ => rfl
  obtain ⟨⟨N, e, hN⟩, _⟩ := h hM (some (mzd_init 70 70)) fun D hD => by
    obtain rfl := Option.some.inj hD
    exact ⟨init_wf _ _, rfl, rfl⟩
  obtain ⟨N', e', _, hb⟩ := C124_given_upper_violated hM (D := mzd_init 70 70) (init_wf _ _) rfl rfl
  rw [e'] at e
  obtain rfl : N' = N := Except.ok.inj e
  have := hN.bit ⟨3, by decide⟩ ⟨5, by decide⟩
  rw [hb, init_bit] at this
  exact absurd this (by decide)

/-- C124: a matrix of another size is refused. -/
theorem C124_size (hM : Rep M A) (h : ¬ (D.nrows = min m n ∧ D.ncols = min m n)) : mzd_extract_u (some D) M = .error .abort ∧ mzd_extract_l (some D) M = .error .abort := by
  have : triBase (some D) M = .error .abort := by
    unfold triBase
    dsimp only
    rw [if_neg (by rw [hM.nrows, hM.ncols]; exact h)]
  constructor
  · unfold mzd_extract_u
    rw [this]; rfl
  · unfold mzd_extract_l
    rw [this]; rfl

/-- 100 rows and 130 columns. -/
def exParts : Matrix (Fin 100) (Fin 130) (ZMod 2) := fun i j => bitF (decide (((i : Nat) * j + i + j) % 3 = 0))
theorem exParts_rep : Rep (pack 100 130 fun i j => decide ((i * j + i + j) % 3 = 0)) exParts := pack_rep fun _ _ => rfl
example : ∃ N, mzd_extract_u none (pack 100 130 fun i j => decide ((i * j + i + j) % 3 = 0)) = .ok N ∧ Rep N (upperPart exParts) ∧ N.Clean := C124_upper_partial exParts_rep
example : ∃ N, mzd_extract_l none (pack 100 130 fun i j => decide ((i * j + i + j) % 3 = 0)) = .ok N ∧ Rep N (lowerPart exParts) ∧ N.Clean := C124_lower_partial exParts_rep

/-- Four rows and columns of ones; the bits behind the last column are not zero. -/
def exFour : Mzd := ⟨4, 4, 0, ⟨4, 1, fun _ _ => 0xff#64⟩⟩
example : (mzd_extract_u none exFour).map (fun N => (List.range 4).map fun i => N.word i 0) = .ok [0xf#64, 0xe#64, 0xc#64, 0x8#64] := by with_unfolding_all rfl
example : (mzd_extract_l none exFour).map (fun N => (List.range 4).map fun i => N.word i 0) = .ok [0x1#64, 0x3#64, 0x7#64, 0xf#64] := by with_unfolding_all rfl

end WB.m4w
