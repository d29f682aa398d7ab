import Mathlib.LinearAlgebra.Matrix.Block
import Verif.Proof.MatGf2Ops

/-!
# `mzd_echelonize_naive` and the invertibility test (helper lemmas)
-/
namespace WB.m4ri
open Matrix

variable {n : Nat}

/-- The matrix of the bits of `m`. -/
abbrev gm (n : Nat) (m : Mzd) : Matrix (Fin n) (Fin n) (ZMod 2) := bitMat n n m.bit

theorem gm_swap (m : Mzd) {a b : Nat} (ha : a < n) (hb : b < n) :
    gm n (rowSwap m a b) = swapR ⟨a, ha⟩ ⟨b, hb⟩ (gm n m) := by
  funext i j
  simp only [bitMat, rowSwap, swapR, Equiv.swap_apply_def, Fin.ext_iff]
  split
  · rfl
  · split <;> rfl

theorem gm_add (m : Mzd) {d p i : Nat} (hd : d < n) (hp : p < n) (hz : ∀ c, c < i → m.bit p c = false) :
    gm n (rowAdd m d p i) = addR ⟨d, hd⟩ ⟨p, hp⟩ (gm n m) := by
  funext r c
  simp only [bitMat, rowAdd, addR, Fin.ext_iff]
  by_cases h : r.val = d
  · subst h
    simp only [true_and, if_true]
    split
    · rw [bitF_xor]
    · rw [hz c (by omega)]
      simp [bitF]
  · simp [h]

/-- The loop invariant: the columns in front of `i` have been treated, the next pivot goes to row `r`. -/
structure Ech (n : Nat) (A : Matrix (Fin n) (Fin n) (ZMod 2)) (i : Nat) (m : Mzd) (r : Nat) : Prop where
  nrows : m.nrows = n
  ncols : m.ncols = n
  det : (gm n m).det = A.det
  le : r ≤ i
  zero : ∀ row c, r ≤ row → row < n → c < i → m.bit row c = false
  full : r = i → ∀ k, k < i → m.bit k k = true ∧ ∀ row, k < row → row < n → m.bit row k = false

/-- The invariant of the elimination loop. -/
structure Elim (n : Nat) (A : Matrix (Fin n) (Fin n) (ZMod 2)) (m₀ : Mzd) (i r ii : Nat) (m : Mzd) : Prop where
  nrows : m.nrows = n
  ncols : m.ncols = n
  det : (gm n m).det = A.det
  left : ∀ row c, c < i → m.bit row c = m₀.bit row c
  top : ∀ row c, row ≤ r → m.bit row c = m₀.bit row c
  done : ∀ row, r < row → row < ii → m.bit row i = false

theorem elim_step {A : Matrix (Fin n) (Fin n) (ZMod 2)} {m₀ : Mzd} {i r ii : Nat} {m : Mzd} (hr : r < n) (hi : i < n)
    (hii : ii < n) (hri : r < ii) (hp : m₀.bit r i = true) (hz : ∀ c, c < i → m₀.bit r c = false)
    (h : Elim n A m₀ i r ii m) :
    Ok (do if ii ≠ r then
             if ← readBit m ii i then pure (rowAdd m ii r i) else pure m
           else pure m : C Mzd) (Elim n A m₀ i r (ii + 1)) := by
  rw [if_pos (by omega)]
  have e : readBit m ii i = .ok (m.bit ii i) := by simp [readBit, h.nrows, h.ncols, hii, hi]
  rw [e]
  simp only [C_pure_bind]
  have hz' : ∀ c, c < i → m.bit r c = false := fun c hc => by rw [h.left r c hc]; exact hz c hc
  by_cases hb : m.bit ii i = true
  · rw [if_pos hb]
    refine (Ok.pure_iff _ _).2 ⟨h.nrows, h.ncols, ?_, ?_, ?_, ?_⟩
    · rw [gm_add m hii hr hz', det_addR (by simp [Fin.ext_iff]; omega)]; exact h.det
    · intro row c hc
      simp only [rowAdd]
      rw [if_neg (by omega)]
      exact h.left row c hc
    · intro row c hrow
      simp only [rowAdd]
      rw [if_neg (by omega)]
      exact h.top row c hrow
    · intro row h1 h2
      simp only [rowAdd]
      by_cases hrow : row = ii
      · subst hrow
        rw [if_pos ⟨rfl, Nat.le_refl _⟩, hb, h.top r i (Nat.le_refl _), hp]; rfl
      · rw [if_neg (by omega)]; exact h.done row h1 (by omega)
  · rw [if_neg hb]
    refine (Ok.pure_iff _ _).2 ⟨h.nrows, h.ncols, h.det, h.left, h.top, ?_⟩
    intro row h1 h2
    by_cases hrow : row = ii
    · subst hrow; simpa using hb
    · exact h.done row h1 (by omega)

/-- One column. -/
theorem col_step {A : Matrix (Fin n) (Fin n) (ZMod 2)} {i : Nat} {m : Mzd} {r : Nat} (hi : i < n) (h : Ech n A i m r) :
    Ok (forBrk r m.nrows (m, r) fun j (m, startrow) => do
      if ← readBit m j i then
        let m := rowSwap m startrow j
        let m ← forUp (startrow + 1) m.nrows m fun ii m => do
          if ii ≠ startrow then
            if ← readBit m ii i then pure (rowAdd m ii startrow i) else pure m
          else pure m
        pure (.stop (m, startrow + 1))
      else pure (.next (m, startrow))) fun x => Ech n A (i + 1) x.1 x.2 := by
  have hrn : r < n := by have := h.le; omega
  refine Ok.forBrk (fun j x => x = (m, r) ∧ ∀ row, r ≤ row → row < j → m.bit row i = false)
    (fun x => Ech n A (i + 1) x.1 x.2) (by rw [h.nrows]; omega) ⟨rfl, by intro row h1 h2; omega⟩ ?_ ?_ ?_
  · rintro j _ hrj hj ⟨rfl, hz⟩
    rw [h.nrows] at hj
    have e : readBit m j i = .ok (m.bit j i) := by simp [readBit, h.nrows, h.ncols, hj, hi]
    simp only [e, C_pure_bind]
    by_cases hb : m.bit j i = true
    · rw [if_pos hb]
      refine Ok.bind (P := Elim n A (rowSwap m r j) i r n) ?_ ?_
      · refine Ok.forUp (Elim n A (rowSwap m r j) i r) (by simp [rowSwap, h.nrows]; omega) ?_ ?_ ?_
        · refine ⟨h.nrows, h.ncols, ?_, fun _ _ _ => rfl, fun _ _ _ => rfl, by intro row h1 h2; omega⟩
          rw [gm_swap m hrn hj, det_swapR]; exact h.det
        · intro ii m' h1 h2 hm'
          have h2' : ii < n := by simpa [rowSwap, h.nrows] using h2
          refine elim_step hrn hi h2' (by omega) ?_ ?_ hm'
          · simp [rowSwap, hb]
          · intro c hc
            simp only [rowSwap, if_true]
            exact h.zero j c hrj hj hc
        · intro m' hm'
          simpa [rowSwap, h.nrows] using hm'
      · intro m' hm'
        refine (Ok.pure_iff _ _).2 ?_
        rw [Step.holds_stop]
        have hleft : ∀ row c, r ≤ row → row < n → c < i → m'.bit row c = false := by
          intro row c h1 h2 hc
          rw [hm'.left row c hc]
          simp only [rowSwap]
          split
          · exact h.zero j c hrj hj hc
          · split
            · exact h.zero r c (Nat.le_refl _) hrn hc
            · exact h.zero row c h1 h2 hc
        have htop : ∀ row c, row < r → m'.bit row c = m.bit row c := by
          intro row c h1
          rw [hm'.top row c (by omega)]
          simp only [rowSwap]
          rw [if_neg (by omega), if_neg (by omega)]
        have hpiv : m'.bit r i = true := by
          rw [hm'.top r i (Nat.le_refl _)]
          simp [rowSwap, hb]
        refine ⟨hm'.nrows, hm'.ncols, hm'.det, by have := h.le; simp; omega, ?_, ?_⟩
        · intro row c h1 h2 hc
          simp only at h1
          by_cases hci : c = i
          · subst hci; exact hm'.done row (by omega) h2
          · exact hleft row c (by omega) h2 (by omega)
        · intro hri k hk
          have hri : r = i := by simpa using hri
          by_cases hki : k = i
          · subst hki
            refine ⟨by rw [← hri] at hpiv ⊢; exact hpiv, ?_⟩
            intro row h1 h2
            exact hm'.done row (by omega) h2
          · have hf := h.full hri k (by omega)
            refine ⟨by rw [htop k k (by omega)]; exact hf.1, ?_⟩
            intro row h1 h2
            by_cases hrow : row < r
            · rw [htop row k hrow]; exact hf.2 row h1 h2
            · exact hleft row k (by omega) h2 (by omega)
    · rw [if_neg hb]
      refine (Ok.pure_iff _ _).2 ?_
      rw [Step.holds_next]
      refine ⟨rfl, ?_⟩
      intro row h1 h2
      by_cases hrow : row = j
      · subst hrow; simpa using hb
      · exact hz row h1 (by omega)
  · rintro _ ⟨rfl, hz⟩
    have hle := h.le
    refine ⟨h.nrows, h.ncols, h.det, by simp; omega, ?_, ?_⟩
    · intro row c h1 h2 hc
      by_cases hci : c = i
      · subst hci; exact hz row h1 (by rw [h.nrows]; exact h2)
      · exact h.zero row c h1 h2 (by omega)
    · intro hri
      simp only at hri
      omega
  · intro x hx; exact hx

theorem gauss_ok {A : Matrix (Fin n) (Fin n) (ZMod 2)} {m : Mzd} (h : Is m A) (hn : 0 < n) :
    ∃ m', gauss_delayed m = .ok m' ∧ m'.nrows = n ∧ m'.ncols = n ∧
      (m'.bit (n - 1) (n - 1) = true ↔ IsUnit A) := by
  have hA : gm n m = A := by funext i j; exact h.bit i j
  have : Ok (gauss_delayed m) fun m' => ∃ r, Ech n A n m' r := by
    rw [gauss_delayed]
    refine Ok.bind (P := fun x => Ech n A n x.1 x.2) ?_ ?_
    · rw [h.ncols]
      refine Ok.forUp (fun i x => Ech n A i x.1 x.2) (Nat.zero_le _) ?_ ?_ ?_
      · exact ⟨h.nrows, h.ncols, by rw [hA], Nat.le_refl _, by intro _ c _ _ hc; omega, by intro _ k hk; omega⟩
      · rintro i ⟨m, r⟩ _ hi hx
        exact col_step hi hx
      · intro x hx; exact hx
    · intro x hx
      exact (Ok.pure_iff _ _).2 ⟨x.2, hx⟩
  obtain ⟨m', e, r, he⟩ := this
  refine ⟨m', e, he.nrows, he.ncols, ?_⟩
  rw [isUnit_iff_det, ← he.det]
  by_cases hr : r = n
  · have hf := he.full hr
    have hdet : (gm n m').det = 1 := by
      rw [Matrix.det_of_upperTriangular]
      · refine Finset.prod_eq_one ?_
        intro k _
        show bitF (m'.bit k k) = 1
        rw [(hf k k.2).1]; rfl
      · intro a b hab
        have hab : b.val < a.val := hab
        show bitF (m'.bit a b) = 0
        rw [(hf b b.2).2 a hab a.2]; rfl
    simp [hdet, (hf (n - 1) (by omega)).1]
  · have hle := he.le
    have hz : ∀ c, c < n → m'.bit (n - 1) c = false := fun c hc => he.zero (n - 1) c (by omega) (by omega) hc
    have hdet : (gm n m').det = 0 := by
      refine Matrix.det_eq_zero_of_row_eq_zero ⟨n - 1, by omega⟩ ?_
      intro c
      show bitF (m'.bit (n - 1) c) = 0
      rw [hz c c.2]; rfl
    rw [hdet, hz (n - 1) (by omega)]
    simp

/-- `IsMatGf2Invertible` on a square matrix. -/
theorem isInvertible_run {s : Heap} (hs : s.Ok) {p : Nat} {A : Matrix (Fin n) (Fin n) (ZMod 2)} (hn : 0 < n)
    (h : Points s p A) [Decidable (IsUnit A)] :
    IsMatGf2Invertible p s = .ok (if IsUnit A then 1 else 0, { s with next := s.next + 1 }) := by
  obtain ⟨m, hp, hA⟩ := h
  obtain ⟨m', e, hr, hc, hb⟩ := gauss_ok hA hn
  rw [IsMatGf2Invertible, MM_bind (deref_run hs hp), if_neg (by rw [hA.nrows, hA.ncols]; simp)]
  have e1 : MatGf2Copy p 0 s = .ok (s.next, push s m) := by
    rw [MatGf2Copy, MM_bind (free_null s), mzd_copy, MM_bind (deref_run hs hp), if_neg (by rw [hA.ncols]; omega)]; rfl
  have e2 : mzd_echelonize_naive s.next (push s m) = .ok ((), push s m') := by
    rw [mzd_echelonize_naive, MM_bind (deref_run (hs.push m) (push_self _ _)), MM_bind (liftC_run _ e), store_run,
      setObj_push_some]
  have e3 : deref s.next (push s m') = .ok (m', push s m') := deref_run (hs.push m') (push_self _ _)
  have e4 : MatGf2Get s.next (n - 1) (n - 1) (push s m') = .ok (m'.bit (n - 1) (n - 1), push s m') :=
    get_run (hs.push m') (push_self _ _) (by omega) (by omega)
  have e5 : MatGf2Free s.next (push s m') = .ok ((), { s with next := s.next + 1 }) := by
    rw [free_run (hs.push m') (push_self _ _), setObj_push hs]
  rw [MM_bind e1, MM_bind e2, MM_bind e3]
  simp only [hr]
  rw [if_neg (by omega), MM_bind e4, MM_bind e5]
  by_cases hu : IsUnit A
  · rw [if_pos hu, hb.2 hu]; rfl
  · have : m'.bit (n - 1) (n - 1) = false := by
      cases hx : m'.bit (n - 1) (n - 1)
      · rfl
      · exact absurd (hb.1 hx) hu
    rw [if_neg hu, this]; rfl

/-- `IsMatGf2Invertible` on a matrix that is not square. -/
theorem isInvertible_rect {s : Heap} (hs : s.Ok) {p : Nat} {m : Mzd} (hp : s.obj p = some m) (h : m.nrows ≠ m.ncols) :
    IsMatGf2Invertible p s = .ok (0, s) := by
  rw [IsMatGf2Invertible, MM_bind (deref_run hs hp), if_pos h]; rfl

end WB.m4ri
