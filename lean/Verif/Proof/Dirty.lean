import Verif.Proof.Affine
import Verif.Proof.Steps

/-!
# 4-bit functions on matrices with dirty high nibbles (helper lemmas)
-/
namespace WB
open Matrix

def lo4 (m : BitVec 8) (k : Nat) (x y : BitVec 8) : BitVec 8 :=
  ((x &&& ~~~m) ^^^ ((y &&& ~~~m) >>> k)) &&& 0x0f
def hi4 (m : BitVec 8) (k : Nat) (x y : BitVec 8) : BitVec 8 :=
  ((y &&& m) ^^^ ((x &&& m) <<< k)) &&& 0x0f
def st2 (a b c d : BitVec 8) : M4 := #v[lo4 3 2 a c, lo4 3 2 b d, hi4 3 2 a c, hi4 3 2 b d]

theorem trans4_eval (env : Env) (a b c d : BitVec 8) (T : M4) :
    MattransM4 env #v[a, b, c, d] T =
      .ok (st2 (lo4 5 1 a b) (hi4 5 1 a b) (lo4 5 1 c d) (hi4 5 1 c d)) := by
  unfold MattransM4
  simp [copyM4_eq, forUp, List.range'_succ, Nat.one_shiftLeft, wr, rd, st2, lo4, hi4]
  rfl

/-- The clean matrix that `MattransM4` really transposes: bit 4 of an odd row is added to
column 0 of the row above it. -/
def seen4 (A : M4) : M4 :=
  #v[(A[0] ^^^ ((A[1] >>> 1) &&& 8)) &&& 0x0f, A[1] &&& 0x0f,
    (A[2] ^^^ ((A[3] >>> 1) &&& 8)) &&& 0x0f, A[3] &&& 0x0f]

theorem lo4_seen (x y : BitVec 8) :
    lo4 5 1 x y = lo4 5 1 ((x ^^^ ((y >>> 1) &&& 8)) &&& 0x0f) (y &&& 0x0f) := by
  apply BitVec.eq_of_getLsbD_eq
  intro i hi
  have : i = 0 ∨ i = 1 ∨ i = 2 ∨ i = 3 ∨ i = 4 ∨ i = 5 ∨ i = 6 ∨ i = 7 := by omega
  rcases this with rfl | rfl | rfl | rfl | rfl | rfl | rfl | rfl <;>
    simp (decide := true) [lo4]

theorem hi4_seen (x y : BitVec 8) :
    hi4 5 1 x y = hi4 5 1 ((x ^^^ ((y >>> 1) &&& 8)) &&& 0x0f) (y &&& 0x0f) := by
  apply BitVec.eq_of_getLsbD_eq
  intro i hi
  have : i = 0 ∨ i = 1 ∨ i = 2 ∨ i = 3 ∨ i = 4 ∨ i = 5 ∨ i = 6 ∨ i = 7 := by omega
  rcases this with rfl | rfl | rfl | rfl | rfl | rfl | rfl | rfl <;>
    simp (decide := true) [hi4]

theorem m4_eta (A : M4) : A = #v[A[0], A[1], A[2], A[3]] := (vec4_eta A).symm

theorem trans4_seen (env : Env) (A T : M4) :
    MattransM4 env A T = MattransM4 env (seen4 A) T := by
  rw [m4_eta A, trans4_eval]
  unfold seen4
  rw [trans4_eval, lo4_seen A[0] A[1], hi4_seen A[0] A[1], lo4_seen A[2] A[3], hi4_seen A[2] A[3]]
  rfl

theorem seen4_clean (A : M4) : CleanM4 (seen4 A) := by
  intro i
  have h : ∀ x : BitVec 8, Clean4 (x &&& 0x0f) := fun x => by
    unfold Clean4
    rw [BitVec.toNat_and]
    exact Nat.lt_of_le_of_lt Nat.and_le_right (by decide)
  match i with
  | 0 => exact h _
  | 1 => exact h _
  | 2 => exact h _
  | 3 => exact h _

/-- What dirt adds to the matrix that is transposed. -/
def dirt4 (A : M4) : Mat 4 := fun r c =>
  if c = 0 ∧ r = 0 then bitF (A[1].getLsbD 4) else
  if c = 0 ∧ r = 2 then bitF (A[3].getLsbD 4) else 0

theorem seen4_mat (A : M4) : mat4 (seen4 A) = mat4 A + dirt4 A := by
  have z : ∀ a : Bool, bitF a = bitF a + 0 := fun a => (add_zero _).symm
  ext r c
  simp only [matOf, dirt4, Matrix.add_apply]
  fin_cases r <;> fin_cases c <;> simp [seen4, bitS, ← bitF_xor]

theorem MattransM4_any (env : Env) (A T : M4) :
    Ok (MattransM4 env A T) (fun B => mat4 B = (mat4 A + dirt4 A)ᵀ ∧ CleanM4 B) := by
  rw [trans4_seen, ← seen4_mat]
  exact MattransM4_ok env (seen4 A) T (seen4_clean A)

theorem MatMulMatM4_any (env : Env) (A B C0 : M4) :
    Ok (MatMulMatM4 env A B C0) (fun C => mat4 C = mat4 A * (mat4 B + dirt4 B) ∧ CleanM4 C) := by
  have : MatMulMatM4 env A B C0 = MatMulMatM4 env A (seen4 B) C0 := by
    unfold MatMulMatM4
    rw [trans4_seen]
  rw [this, ← seen4_mat]
  exact MatMulMatM4_ok env A (seen4 B) C0 (seen4_clean B)

theorem dirt4_zero_iff (A : M4) :
    dirt4 A = 0 ↔ A[1].getLsbD 4 = false ∧ A[3].getLsbD 4 = false := by
  constructor
  · intro h
    have h1 := congrFun (congrFun h 0) 0
    have h2 := congrFun (congrFun h 2) 0
    simp [dirt4] at h1 h2
    exact ⟨by simpa using h1, by simpa using h2⟩
  · rintro ⟨h1, h2⟩
    ext r c
    simp only [dirt4, h1, h2]
    simp

/-! ## `isinvertM4` -/

/-- XOR of the selected rows, all eight bits. -/
def comb4 (c : Fin 4 → Bool) (A : M4) : BitVec 8 :=
  ((if c 0 then A[0] else 0) ^^^ (if c 1 then A[1] else 0)) ^^^
    ((if c 2 then A[2] else 0) ^^^ (if c 3 then A[3] else 0))

theorem comb4_xor (c d : Fin 4 → Bool) (A : M4) :
    comb4 (fun i => c i ^^ d i) A = comb4 c A ^^^ comb4 d A := by
  have h : ∀ (a b : Bool) (x : BitVec 8),
      (if (a ^^ b) then x else 0) = (if a then x else 0) ^^^ (if b then x else 0) := by
    intro a b x; cases a <;> cases b <;> simp
  unfold comb4
  rw [h, h, h, h]
  ac_rfl

theorem comb4_bit (c : Fin 4 → Bool) (A : M4) (j : Fin 4) :
    bitF (bitS 4 (comb4 c A) j) = Matrix.vecMul (fun i => bitF (c i)) (mat4 A) j := by
  have h : ∀ (a : Bool) (x : BitVec 8), bitF (bitS 4 (if a then x else 0) j) =
      bitF a * bitF (bitS 4 x j) := by
    intro a x; cases a <;> simp [bitS]
  unfold comb4
  simp only [bitS_xor, bitF_xor, h]
  simp [Matrix.vecMul, dotProduct, Fin.sum_univ_four, matOf, add_assoc]

/-- All rows are combinations of the rows of `A`. -/
def InSpan (A B : M4) : Prop := ∀ r : Fin 4, ∃ c, B[r] = comb4 c A

theorem InSpan.refl (A : M4) : InSpan A A := by
  intro r
  refine ⟨fun i => decide (i = r), ?_⟩
  fin_cases r <;> simp [comb4]

theorem InSpan.set {A B : M4} (h : InSpan A B) {x : BitVec 8} (hx : ∃ c, x = comb4 c A) (i : Nat)
    (hi : i < 4) : InSpan A (Vector.set B i x hi : M4) := by
  intro r
  simp only [Fin.getElem_fin, Vector.getElem_set]
  split
  · exact hx
  · exact h r

theorem InSpan.xor {A B : M4} (h : InSpan A B) (i j : Fin 4) :
    ∃ c, B[i] ^^^ B[j] = comb4 c A := by
  obtain ⟨c, hc⟩ := h i
  obtain ⟨d, hd⟩ := h j
  exact ⟨_, by rw [hc, hd, ← comb4_xor]⟩

theorem opsS_ok4_span (A0 : M4) (id : Vector (BitVec 8) 4) (hid : IdOK 4 id) :
    OpsOK 4 (opsS id) (matOf 4 (bitS 4)) (InSpan A0) 0 4 where
  test := (opsS_ok id hid).test
  addP i j A _ _ _ _ := by
    refine (Ok_xorRow j.2 i.2).mono ?_
    rintro A' rfl
    exact ⟨matOf_xorRow A j i, fun h => h.set (h.xor j i) _ _⟩
  swpP i a b A _ _ _ _ _ _ := by
    refine (Ok_swapRow a.2 b.2).mono ?_
    rintro A' rfl
    exact ⟨matOf_swapRow _ A a b, fun h => (h.set (h b) _ _).set (h a) _ _⟩
  addB := (opsS_ok id hid).addB
  addF j i A _ := by
    refine (Ok_xorRow j.2 i.2).mono ?_
    rintro A' rfl
    exact ⟨matOf_xorRow A j i, fun h => h.set (h.xor j i) _ _⟩
  swpF i j A _ := by
    refine (Ok_swapRow i.2 j.2).mono ?_
    rintro A' rfl
    exact ⟨matOf_swapRow _ A i j, fun h => (h.set (h j) _ _).set (h i) _ _⟩

theorem isinvertM4_any (A : M4) : Ok (isinvertM4 A) (fun r =>
    (r = 0 ∨ r = 1) ∧ (r = 1 ↔ (mat4 A).det = 1 ∧ ∃ c, comb4 c A = 1#8)) := by
  have hO := opsS_ok4_span A idM4 idOK4
  unfold isinvertM4
  refine Ok.bind (P := Step.holds (isinvInv (matOf 4 (bitS 4)) (InSpan A) A 4)
    (fun r => r = 0 ∧ (mat4 A).det = 0)) ?_ ?_
  · refine Ok.forRet (isinvInv (matOf 4 (bitS 4)) (InSpan A) A) _ (Nat.zero_le _)
      ⟨Tri.zero _, fun c h => absurd h (Nat.not_lt_zero _), rfl, fun h => h⟩ ?_
      (fun _ h => h) (fun _ h => h)
    intro i s _ hi hI
    exact isinvStep_spec hO A (Nat.zero_le _) hi hi hI
  · intro st h
    match st, h with
    | .stop r, h =>
      obtain ⟨hr, hd⟩ : r = 0 ∧ (mat4 A).det = 0 := h
      simp only [Ok.pure_iff]
      subst hr
      rw [hd]
      exact ⟨Or.inl rfl, fun h => absurd h (by decide), fun h => absurd h.1 (by decide)⟩
    | .next B, h =>
      obtain ⟨hT, hD, hdet, hG⟩ : isinvInv (matOf 4 (bitS 4)) (InSpan A) A 4 B := h
      have hone : (mat4 A).det = 1 := hdet ▸ det_one_of_tri hT (fun i => hD i i.2)
      obtain ⟨d, hd⟩ := hG (InSpan.refl A) 3
      rw [Ok.bind_iff, Ok_rd]
      refine ⟨by omega, ?_⟩
      rw [Ok.bind_iff, Ok_rd]
      refine ⟨by omega, ?_⟩
      rw [Ok.ite_iff, Ok.pure_iff, Ok.pure_iff]
      constructor
      · intro he
        refine ⟨Or.inr rfl, fun _ => ⟨hone, d, ?_⟩, fun _ => rfl⟩
        rw [← hd]
        have := eq_of_beq he
        exact this
      · intro hne
        refine ⟨Or.inl rfl, fun h => absurd h (by decide), ?_⟩
        rintro ⟨-, c, hc⟩
        exfalso
        apply hne
        have hB : ∀ j : Fin 4, mat4 B 3 j = (1 : Mat 4) 3 j := by
          intro j
          by_cases e : j = 3
          · subst e; rw [one_apply_eq]; exact hD _ (by decide)
          · rw [one_apply_ne (Ne.symm e)]
            exact hT _ _ j.2 (by
              have : j.val ≠ 3 := fun h => e (Fin.ext h)
              show j.val < 3
              omega)
        have hlow : ∀ j : Fin 4, bitF (bitS 4 (comb4 d A) j) = bitF (bitS 4 (comb4 c A) j) := by
          intro j
          rw [← hd, hc]
          refine (hB j).trans ?_
          fin_cases j <;> decide
        have hvm : Matrix.vecMul (fun i => bitF (d i)) (mat4 A) =
            Matrix.vecMul (fun i => bitF (c i)) (mat4 A) := by
          funext j
          rw [← comb4_bit, ← comb4_bit]
          exact hlow j
        have hu : IsUnit (mat4 A) := (isUnit_iff_det _).2 hone
        have hcd := Matrix.vecMul_injective_of_isUnit hu hvm
        have : d = c := funext fun i => bitF_inj.1 (congrFun hcd i)
        subst this
        rw [hc] at hd
        simp only [Fin.getElem_fin] at hd
        rw [show B[3] = 1#8 from hd]
        decide

end WB
