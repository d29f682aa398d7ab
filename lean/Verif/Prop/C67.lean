import Verif.Prop.C65

/-!
# C67 — the test for invertibility and the random invertible matrices of the layer on top of M4RI
-/
namespace WB
open m4ri

variable {lib : M4ri} {s : Heap}

/-- C67: `IsMatGf2Invertible` returns 1 for an invertible matrix and 0 for any other square matrix that is not empty; all
matrices in memory are as before. -/
theorem C67_IsMatGf2Invertible (hs : s.Ok) {p n : Nat} {A : Matrix (Fin n) (Fin n) (ZMod 2)} (hn : 0 < n)
    (h : Points s p A) :
    ∃ v, IsMatGf2Invertible p s = .ok (v, { s with next := s.next + 1 }) ∧ (v = 1 ↔ IsUnit A) ∧ (v = 0 ↔ ¬ IsUnit A) := by
  classical
  refine ⟨_, isInvertible_run hs hn h, ?_, ?_⟩
  · by_cases hu : IsUnit A <;> simp [hu]
  · by_cases hu : IsUnit A <;> simp [hu]

/-- C67: `IsMatGf2Invertible` returns 0 for a matrix that is not square. -/
theorem C67_IsMatGf2Invertible_rect (hs : s.Ok) {p r c : Nat} {A : Matrix (Fin r) (Fin c) (ZMod 2)} (hrc : r ≠ c)
    (h : Points s p A) : IsMatGf2Invertible p s = .ok (0, s) := by
  obtain ⟨m, hp, hA⟩ := h
  exact isInvertible_rect hs hp (by rw [hA.nrows, hA.ncols]; exact hrc)

/-- C67: on a matrix without rows and columns it reads outside the matrix. -/
theorem C67_IsMatGf2Invertible_empty (hs : s.Ok) {p : Nat} {A : Matrix (Fin 0) (Fin 0) (ZMod 2)} (h : Points s p A) :
    IsMatGf2Invertible p s = .error (.c .oob) := by
  obtain ⟨m, hp, hA⟩ := h
  rw [IsMatGf2Invertible, MM_bind (deref_run hs hp), if_neg (by rw [hA.nrows, hA.ncols]; simp)]
  have e1 : MatGf2Copy p 0 s = .ok (s.next, push s m) := by
    rw [MatGf2Copy, MM_bind (free_null s), mzd_copy, MM_bind (deref_run hs hp), if_neg (by rw [hA.nrows]; omega)]; rfl
  have e2 : gauss_delayed m = .ok m := by
    rw [gauss_delayed, hA.ncols]; rfl
  have e3 : mzd_echelonize_naive s.next (push s m) = .ok ((), push s m) := by
    rw [mzd_echelonize_naive, MM_bind (deref_run (hs.push m) (push_self s m)), MM_bind (liftC_run _ e2), store_run,
      setObj_push_some]
  show (MatGf2Copy p 0 >>= _) s = _
  rw [MM_bind e1, MM_bind e3, MM_bind (deref_run (hs.push m) (push_self s m))]
  rw [if_pos hA.nrows]
  rfl

/-- A heap with two 2 × 2 matrices and a 1 × 2 matrix. -/
def exHeap2 : Heap where
  obj p := match p with
    | 1 => some ⟨2, 2, fun i j => i ≠ j⟩
    | 2 => some ⟨2, 2, fun _ _ => true⟩
    | 3 => some ⟨1, 2, fun _ _ => true⟩
    | _ => none
  next := 4
  rand := 0
  out := []

example : Points exHeap2 1 (bitMat 2 2 fun i j => i ≠ j) := ⟨_, rfl, rfl, rfl, fun _ _ => rfl⟩
example : valueOf (IsMatGf2Invertible 1 exHeap2) = some 1 := by decide +kernel
example : valueOf (IsMatGf2Invertible 2 exHeap2) = some 0 := by decide +kernel
example : valueOf (IsMatGf2Invertible 3 exHeap2) = some 0 := by decide +kernel

/-- C67: `GenInvertibleMatGf2(n, n)` returns a new matrix with the bits of the first call of `mzd_randomize`, from now on,
that gives an invertible matrix; one more matrix is allocated.  `fuel` bounds the number of rounds of the loop. -/
theorem C67_GenInvertibleMatGf2 (hs : s.Ok) {n fuel k : Nat} (hn : 0 < n) (hk : k < fuel)
    (h1 : ∀ t, t < k → ¬ IsUnit (bitMat n n (lib.rnd (s.rand + t)))) (h2 : IsUnit (bitMat n n (lib.rnd (s.rand + k)))) :
    ∃ p s', GenInvertibleMatGf2 lib fuel n n s = .ok (p, s') ∧ Points s' p (bitMat n n (lib.rnd (s.rand + k))) ∧
      (∀ q, q ≠ p → s'.obj q = s.obj q) ∧ s.obj p = none ∧ s'.live = s.live + 1 ∧ s'.rand = s.rand + k + 1 ∧
      s'.out = s.out := by
  have e := drawInvertible_found (lib := lib) hs hn k fuel 0 hk (fun t _ ht => h1 t (by omega)) (by rwa [Nat.zero_add])
  rw [Nat.zero_add] at e
  have e0 : ({ drawn lib s n n 0 with next := s.next + 1 + 0 } : Heap) = drawn lib s n n 0 := rfl
  rw [e0] at e
  refine ⟨s.next, { drawn lib s n n k with next := s.next + 2 + k }, ?_, ?_, ?_, hs.fresh _ (Nat.le_refl _), ?_, rfl, rfl⟩
  · rw [GenInvertibleMatGf2, MM_bind (genRandom_run hs hn), MM_bind e]; rfl
  · refine ⟨⟨n, n, lib.rnd (s.rand + k)⟩, ?_, rfl, rfl, fun _ _ => rfl⟩
    simp [drawn, push]
  · intro q hq
    simp [drawn, push, hq]
  · have h := live_skip ((hs.push ⟨n, n, lib.rnd (s.rand + k)⟩).rand (s.rand + k + 1)) (k + 1)
    have h' := live_push hs ⟨n, n, lib.rnd (s.rand + k)⟩
    have e1 : ({ drawn lib s n n k with next := s.next + 2 + k } : Heap)
        = { ({ push s ⟨n, n, lib.rnd (s.rand + k)⟩ with rand := s.rand + k + 1 } : Heap) with
            next := s.next + 1 + (k + 1) } := by
      rw [show s.next + 2 + k = s.next + 1 + (k + 1) by omega]; rfl
    rw [e1]
    exact h.trans h'

/-- C67: if none of the draws is invertible the function does not return. -/
theorem C67_GenInvertibleMatGf2_diverges (hs : s.Ok) {n : Nat} (hn : 0 < n)
    (h : ∀ t, ¬ IsUnit (bitMat n n (lib.rnd (s.rand + t)))) (fuel : Nat) :
    GenInvertibleMatGf2 lib fuel n n s = .error (.c .diverge) := by
  have e := drawInvertible_run (lib := lib) hs hn fuel 0 (fun t _ _ => h t)
  have e0 : ({ drawn lib s n n 0 with next := s.next + 1 + 0 } : Heap) = drawn lib s n n 0 := rfl
  rw [e0] at e
  rw [GenInvertibleMatGf2, MM_bind (genRandom_run hs hn), MM_bind_err e]

/-- C67: with a number of rows that is not the number of columns the function does not return, whatever is drawn. -/
theorem C67_GenInvertibleMatGf2_rect (hs : s.Ok) {r c : Nat} (hc : 0 < c) (hrc : r ≠ c) (fuel : Nat) :
    GenInvertibleMatGf2 lib fuel r c s = .error (.c .diverge) := by
  rw [GenInvertibleMatGf2, MM_bind (genRandom_run hs hc)]
  refine MM_bind_err ?_
  refine drawRect_run fuel _ ⟨r, c, lib.rnd (s.rand + 0)⟩ ?_ ?_ hrc hc
  · exact (hs.push ⟨r, c, lib.rnd (s.rand + 0)⟩).rand (s.rand + 0 + 1)
  · simp [drawn, push]

/-- C67: together: whatever is drawn, the result of `GenInvertibleMatGf2`, if there is one, is an invertible square
matrix. -/
theorem C67_GenInvertibleMatGf2_sound (hs : s.Ok) {r c fuel p : Nat} {s' : Heap} (hc : 0 < c)
    (h : GenInvertibleMatGf2 lib fuel r c s = .ok (p, s')) :
    ∃ (A : Matrix (Fin r) (Fin r) (ZMod 2)), r = c ∧ Points s' p A ∧ IsUnit A := by
  by_cases hrc : r = c
  · subst hrc
    by_cases hex : ∃ t, t < fuel ∧ IsUnit (bitMat r r (lib.rnd (s.rand + t)))
    · classical
      obtain ⟨hk, hu⟩ := Nat.find_spec hex
      obtain ⟨p', s'', e, hp, -⟩ := C67_GenInvertibleMatGf2 (lib := lib) hs hc hk
        (fun t ht hu => Nat.find_min hex ht ⟨by omega, hu⟩) hu
      rw [e] at h
      cases h
      exact ⟨_, rfl, hp, hu⟩
    · exfalso
      push Not at hex
      have e := drawInvertible_run (lib := lib) hs hc fuel 0 (fun t _ ht => hex t (by omega))
      have e0 : ({ drawn lib s r r 0 with next := s.next + 1 + 0 } : Heap) = drawn lib s r r 0 := rfl
      rw [e0] at e
      rw [GenInvertibleMatGf2, MM_bind (genRandom_run hs hc), MM_bind_err e] at h
      cases h
  · rw [C67_GenInvertibleMatGf2_rect hs hc hrc fuel] at h
    cases h

example : valueOf (GenInvertibleMatGf2 exLib 1 2 2 exHeap) = some 4 := by decide +kernel
example : valueOf (GenInvertibleMatGf2 exLib 3 2 1 exHeap) = none := by decide +kernel

end WB
