import Verif.Prop.C65

/-!
# C66 — memory in the matrix layer on top of M4RI

The functions `MatGf2Xxx(…, &dst)` free the matrix that `dst` points to and set `dst` to a new matrix.  In the model the
result is the new value of `dst`.
-/
namespace WB
open m4ri

variable {lib : M4ri} {s : Heap}

/-! ## Functions that may be called with the destination as operand -/

/-- C66: `MatGf2Mul` frees the old destination, which may be one of the operands, and returns a new matrix, the product. -/
theorem C66_MatGf2Mul (hl : lib.Ok) (hs : s.Ok) {a b r k c : Nat} {A : Matrix (Fin r) (Fin k) (ZMod 2)}
    {B : Matrix (Fin k) (Fin c) (ZMod 2)} {dst : Nat}
    (hk : 0 < k) (hc : 0 < c) (ha : Points s a A) (hb : Points s b B) (hd : CanFree s dst) :
    ∃ m, MatGf2Mul lib a b dst s = .ok (s.next, setObj (push s m) dst none) ∧ Is m (A * B) := by
  obtain ⟨m, e, hm⟩ := mul_run hl hs ha hb
  exact ⟨m, thenFree hs hd e, hm⟩

/-- C66: `MatGf2Add` frees the old destination, which may be one of the operands, and returns a new matrix, the sum. -/
theorem C66_MatGf2Add (hs : s.Ok) {a b r c : Nat} {A B : Matrix (Fin r) (Fin c) (ZMod 2)} {dst : Nat}
    (ha : Points s a A) (hb : Points s b B) (hd : CanFree s dst) :
    ∃ m, MatGf2Add a b dst s = .ok (s.next, setObj (push s m) dst none) ∧ Is m (A + B) := by
  obtain ⟨m, e, hm⟩ := add_run hs ha hb
  exact ⟨m, thenFree hs hd e, hm⟩

/-- C66: `MatGf2Stack` frees the old destination, which may be one of the operands, and returns a new matrix, the first matrix on top of the second. -/
theorem C66_MatGf2Stack (hs : s.Ok) {a b r₁ r₂ c : Nat} {A : Matrix (Fin r₁) (Fin c) (ZMod 2)}
    {B : Matrix (Fin r₂) (Fin c) (ZMod 2)} {dst : Nat}
    (ha : Points s a A) (hb : Points s b B) (hd : CanFree s dst) :
    ∃ m, MatGf2Stack a b dst s = .ok (s.next, setObj (push s m) dst none) ∧ Is m (stackMat A B) := by
  obtain ⟨m, e, hm⟩ := stack_run hs ha hb
  exact ⟨m, thenFree hs hd e, hm⟩

/-- C66: `MatGf2Concat` frees the old destination, which may be one of the operands, and returns a new matrix, the first matrix beside the second. -/
theorem C66_MatGf2Concat (hs : s.Ok) {a b r c₁ c₂ : Nat} {A : Matrix (Fin r) (Fin c₁) (ZMod 2)}
    {B : Matrix (Fin r) (Fin c₂) (ZMod 2)} {dst : Nat}
    (ha : Points s a A) (hb : Points s b B) (hd : CanFree s dst) :
    ∃ m, MatGf2Concat a b dst s = .ok (s.next, setObj (push s m) dst none) ∧ Is m (concatMat A B) := by
  obtain ⟨m, e, hm⟩ := concat_run hs ha hb
  exact ⟨m, thenFree hs hd e, hm⟩

/-- C66: `MatGf2Inv` frees the old destination, which may be the operand, and returns a new matrix, the inverse. -/
theorem C66_MatGf2Inv (hl : lib.Ok) (hs : s.Ok) {a n : Nat} {A : Matrix (Fin n) (Fin n) (ZMod 2)} {dst : Nat}
    (hn : 0 < n) (ha : Points s a A) (hu : IsUnit A) (hd : CanFree s dst) :
    ∃ m, MatGf2Inv lib a dst s = .ok (s.next, setObj (push s m) dst none) ∧ Is m A⁻¹ := by
  obtain ⟨m, e, hm⟩ := inv_run hl hs ha hu
  exact ⟨m, thenFree hs hd e, hm⟩

/-- C66: `MatGf2Transpose` frees the old destination, which may be the operand, and returns a new matrix, the transpose. -/
theorem C66_MatGf2Transpose (hl : lib.Ok) (hs : s.Ok) {a r c : Nat} {A : Matrix (Fin r) (Fin c) (ZMod 2)} {dst : Nat}
    (hr : 0 < r) (hc : 0 < c) (ha : Points s a A) (hd : CanFree s dst) :
    ∃ m, MatGf2Transpose lib a dst s = .ok (s.next, setObj (push s m) dst none) ∧ Is m A.transpose := by
  obtain ⟨m, e, hm⟩ := transpose_run hl hs hr hc ha
  exact ⟨m, thenFree hs hd e, hm⟩

example : CanFree exHeap 1 := .inr ⟨_, rfl⟩
example : CanFree exHeap 0 := .inl rfl
example : valueOf ((do let d ← MatGf2Mul exLib 1 1 1; MatGf2Get d 0 2 : MM Bool) exHeap) = some true := by decide +kernel

/-! ## Functions that may not -/

/-- C66: `MatGf2Copy` frees the old destination and returns a copy, if the destination is not the operand and
there are columns or no rows. -/
theorem C66_MatGf2Copy_partial (hs : s.Ok) {a dst r c : Nat} {A : Matrix (Fin r) (Fin c) (ZMod 2)} (hrc : 0 < c ∨ r = 0) (ha : Points s a A)
    (hd : CanFree s dst) (hne : a ≠ dst) :
    ∃ m, MatGf2Copy a dst s = .ok (s.next, setObj (push s m) dst none) ∧ Is m A := by
  obtain ⟨ma, ha, hA⟩ := ha
  have hdn : s.next ≠ dst := by
    rintro rfl
    rcases hd with h | ⟨m, h⟩
    · have := hs.pos; omega
    · exact absurd (hs.lt h) (Nat.lt_irrefl _)
  have ha' : (setObj s dst none).obj a = some ma := by rw [setObj_ne _ _ hne]; exact ha
  refine ⟨ma, ?_, hA⟩
  rw [MatGf2Copy, MM_bind (free_any hs hd), mzd_copy, MM_bind (deref_run (hs.setNone dst) ha'), if_neg (by rw [hA.ncols, hA.nrows]; omega)]
  show Except.ok (_, _) = Except.ok (_, _)
  simp only [setObj, push, Function.update_comm hdn]

/-- C66 fails for `MatGf2Copy`: copying a matrix to itself uses the matrix after it has been freed. -/
theorem C66_MatGf2Copy_violated (hs : s.Ok) {a r c : Nat} {A : Matrix (Fin r) (Fin c) (ZMod 2)} (ha : Points s a A) :
    MatGf2Copy a a s = .error .freed := by
  obtain ⟨ma, ha, -⟩ := ha
  rw [MatGf2Copy, MM_bind (free_run hs ha), mzd_copy,
    MM_bind_err (deref_freed (hs.ne_zero ha) (by simp [setObj]))]

/-- C66: `MatGf2Diag` frees the old destination and returns the matrix with the two matrices on the diagonal, if the
destination is neither of them. -/
theorem C66_MatGf2Diag_partial (hs : s.Ok) {a b dst n₁ n₂ : Nat} {A : Matrix (Fin n₁) (Fin n₁) (ZMod 2)}
    {B : Matrix (Fin n₂) (Fin n₂) (ZMod 2)} (ha : Points s a A) (hb : Points s b B) (hd : CanFree s dst) (had : a ≠ dst)
    (hbd : b ≠ dst) :
    ∃ m, MatGf2Diag a b dst s = .ok (s.next, setObj (push s m) dst none) ∧ Is m (diagMat A B) :=
  diag_run hs ha hb hd had hbd

/-- C66 fails for `MatGf2Diag`: if the destination is one of the two matrices, neither of which is empty, it is used after
it has been freed. -/
theorem C66_MatGf2Diag_violated (hs : s.Ok) {a b dst n₁ n₂ : Nat} {A : Matrix (Fin n₁) (Fin n₁) (ZMod 2)}
    {B : Matrix (Fin n₂) (Fin n₂) (ZMod 2)} (ha : Points s a A) (hb : Points s b B) (h1 : 0 < n₁) (h2 : 0 < n₂)
    (hd : dst = a ∨ dst = b) : MatGf2Diag a b dst s = .error .freed := diag_alias hs ha hb h1 h2 hd

example : (MatGf2Copy 1 1 exHeap).isOk = false := by decide +kernel
example : (MatGf2Diag 1 1 1 exHeap).isOk = false := by decide +kernel
example : (MatGf2Diag 1 1 2 exHeap).isOk = true := by decide +kernel

/-! ## Matrices that are left behind -/

/-- The number of matrices after `f` has been called for the elements of a list one after the other. -/
def leaves (f : BitVec w → MM (BitVec w)) (xs : List (BitVec w)) (s : Heap) : Option Nat :=
  match (xs.forM fun x => do let _ ← f x; pure () : MM Unit) s with
  | .ok (_, s') => some s'.live
  | .error _ => none

theorem leaves_eq {w : Nat} {f : BitVec w → MM (BitVec w)} {mat r c k : Nat} {A : Matrix (Fin r) (Fin c) (ZMod 2)}
    (hf : ∀ s x, s.Ok → Points s mat A → ∃ y s', f x s = .ok (y, s') ∧ s'.Ok ∧ Points s' mat A ∧ s'.live = s.live + k)
    (xs : List (BitVec w)) : ∀ s, s.Ok → Points s mat A → leaves f xs s = some (s.live + k * xs.length) := by
  induction xs with
  | nil => intro s _ _; rfl
  | cons x xs ih =>
    intro s hs hA
    obtain ⟨y, s', e, h1, h2, h3⟩ := hf s x hs hA
    have e' : (List.forM (x :: xs) (fun x => do let _ ← f x; pure () : BitVec w → MM Unit)) s
        = (List.forM xs (fun x => do let _ ← f x; pure () : BitVec w → MM Unit)) s' := by
      show ((do let _ ← f x; pure () : MM Unit) >>= fun _ => List.forM xs _) s = _
      rw [MM_bind (show (do let _ ← f x; pure () : MM Unit) s = .ok ((), s') by rw [MM_bind e]; rfl)]
    rw [leaves, e']
    have := ih s' h1 h2
    rw [leaves] at this
    rw [this, h3, List.length_cons]
    congr 1
    rw [Nat.mul_succ]
    omega

/-- C66 fails for `AddMatToU32`: every call leaves one matrix behind that no pointer of the program points to; after a list
of calls there are as many more matrices as calls. -/
theorem C66_AddMatToU32_violated (hs : s.Ok) {mat : Nat} {A : Matrix (Fin 32) (Fin 1) (ZMod 2)} (hA : Points s mat A)
    (xs : List (BitVec 32)) : leaves (AddMatToU32 mat) xs s = some (s.live + xs.length) := by
  have := leaves_eq (k := 1) (f := AddMatToU32 mat) (mat := mat) (A := A) (fun s x hs hA => by
    obtain ⟨y, m, e, -, -⟩ := C65_AddMatToU32 hs hA x
    refine ⟨y, _, e, (hs.push m).skip 1, ?_, ?_⟩
    · exact hA.push hs m
    · exact (live_skip (hs.push m) 1).trans (live_push hs m)) xs s hs hA
  rw [this, Nat.one_mul]

/-- C66 fails for `AddMatToU64`: every call leaves one matrix behind that no pointer of the program points to; after a list
of calls there are as many more matrices as calls. -/
theorem C66_AddMatToU64_violated (hs : s.Ok) {mat : Nat} {A : Matrix (Fin 64) (Fin 1) (ZMod 2)} (hA : Points s mat A)
    (xs : List (BitVec 64)) : leaves (AddMatToU64 mat) xs s = some (s.live + xs.length) := by
  have := leaves_eq (k := 1) (f := AddMatToU64 mat) (mat := mat) (A := A) (fun s x hs hA => by
    obtain ⟨y, m, e, -, -⟩ := C65_AddMatToU64 hs hA x
    refine ⟨y, _, e, (hs.push m).skip 1, ?_, ?_⟩
    · exact hA.push hs m
    · exact (live_skip (hs.push m) 1).trans (live_push hs m)) xs s hs hA
  rw [this, Nat.one_mul]

/-- C66 fails for `GenMatAddU8`, `GenMatAddU16` and `GenMatAddU32`: a call makes two matrices and returns one of them; no
pointer of the program points to the other. -/
theorem C66_GenMatAddU_violated (hs : s.Ok) {n : Nat} (hn : n ≤ 64) {mat : Nat} {A : Matrix (Fin n) (Fin 1) (ZMod 2)}
    (hA : Points s mat A) (x : BitVec n) :
    ∃ p s', GenMatAddU n mat x s = .ok (p, s') ∧ Points s' p (A + colVec n x) ∧ s'.live = s.live + 2 ∧
      (setObj s' p none).live = s.live + 1 := by
  obtain ⟨m, m', e, hm⟩ := C65_GenMatAddU hs hn hA x
  have hp : (push (push s m) m').obj (s.next + 1) = some m' := push_self (push s m) m'
  refine ⟨_, _, e, ⟨m', hp, hm⟩, ?_, ?_⟩
  · rw [live_push (hs.push m), live_push hs]
  · have := live_free ((hs.push m).push m') hp
    rw [live_push (hs.push m), live_push hs] at this
    omega

/-- C66: `ApplyMatToU8` leaves nothing behind, however often it is called. -/
theorem C66_ApplyMatToU8 (hl : lib.Ok) (hs : s.Ok) {mat : Nat} {A : Matrix (Fin 8) (Fin 8) (ZMod 2)}
    (hA : Points s mat A) (xs : List (BitVec 8)) : leaves (ApplyMatToU8 lib mat) xs s = some s.live := by
  have := leaves_eq (k := 0) (f := ApplyMatToU8 lib mat) (mat := mat) (A := A) (fun s x hs hA => by
    obtain ⟨y, e, -⟩ := C65_ApplyMatToU8 hl hs hA x
    exact ⟨y, _, e, hs.skip 2, hA, live_skip hs 2⟩) xs s hs hA
  rw [this, Nat.zero_mul]; rfl

/-- C66: `ApplyMatToU16` leaves nothing behind, however often it is called. -/
theorem C66_ApplyMatToU16 (hl : lib.Ok) (hs : s.Ok) {mat : Nat} {A : Matrix (Fin 16) (Fin 16) (ZMod 2)}
    (hA : Points s mat A) (xs : List (BitVec 16)) : leaves (ApplyMatToU16 lib mat) xs s = some s.live := by
  have := leaves_eq (k := 0) (f := ApplyMatToU16 lib mat) (mat := mat) (A := A) (fun s x hs hA => by
    obtain ⟨y, e, -⟩ := C65_ApplyMatToU16 hl hs hA x
    exact ⟨y, _, e, hs.skip 2, hA, live_skip hs 2⟩) xs s hs hA
  rw [this, Nat.zero_mul]; rfl

/-- C66: `ApplyMatToU32` leaves nothing behind, however often it is called. -/
theorem C66_ApplyMatToU32 (hl : lib.Ok) (hs : s.Ok) {mat : Nat} {A : Matrix (Fin 32) (Fin 32) (ZMod 2)}
    (hA : Points s mat A) (xs : List (BitVec 32)) : leaves (ApplyMatToU32 lib mat) xs s = some s.live := by
  have := leaves_eq (k := 0) (f := ApplyMatToU32 lib mat) (mat := mat) (A := A) (fun s x hs hA => by
    obtain ⟨y, e, -⟩ := C65_ApplyMatToU32 hl hs hA x
    exact ⟨y, _, e, hs.skip 2, hA, live_skip hs 2⟩) xs s hs hA
  rw [this, Nat.zero_mul]; rfl

/-- C66: `ApplyMatToU64` leaves nothing behind, however often it is called. -/
theorem C66_ApplyMatToU64 (hl : lib.Ok) (hs : s.Ok) {mat : Nat} {A : Matrix (Fin 64) (Fin 64) (ZMod 2)}
    (hA : Points s mat A) (xs : List (BitVec 64)) : leaves (ApplyMatToU64 lib mat) xs s = some s.live := by
  have := leaves_eq (k := 0) (f := ApplyMatToU64 lib mat) (mat := mat) (A := A) (fun s x hs hA => by
    obtain ⟨y, e, -⟩ := C65_ApplyMatToU64 hl hs hA x
    exact ⟨y, _, e, hs.skip 2, hA, live_skip hs 2⟩) xs s hs hA
  rw [this, Nat.zero_mul]; rfl

/-- C66: `ApplyMatToU128` leaves nothing behind, however often it is called. -/
theorem C66_ApplyMatToU128 (hl : lib.Ok) (hs : s.Ok) {mat : Nat} {A : Matrix (Fin 128) (Fin 128) (ZMod 2)}
    (hA : Points s mat A) (xs : List (BitVec 128)) : leaves (ApplyMatToU128 lib mat) xs s = some s.live := by
  have := leaves_eq (k := 0) (f := ApplyMatToU128 lib mat) (mat := mat) (A := A) (fun s x hs hA => by
    obtain ⟨y, e, -⟩ := C65_ApplyMatToU128 hl hs hA x
    exact ⟨y, _, e, hs.skip 2, hA, live_skip hs 2⟩) xs s hs hA
  rw [this, Nat.zero_mul]; rfl

/-- C66: `AddMatToU128` leaves nothing behind, however often it is called. -/
theorem C66_AddMatToU128 (hs : s.Ok) {mat : Nat} {A : Matrix (Fin 128) (Fin 1) (ZMod 2)} (hA : Points s mat A)
    (xs : List (BitVec 128)) : leaves (AddMatToU128 mat) xs s = some s.live := by
  have := leaves_eq (k := 0) (f := AddMatToU128 mat) (mat := mat) (A := A) (fun s x hs hA => by
    obtain ⟨y, e, -⟩ := C65_AddMatToU128 hs hA x
    exact ⟨y, _, e, hs.skip 2, hA, live_skip hs 2⟩) xs s hs hA
  rw [this, Nat.zero_mul]; rfl

example : exHeap.live = 3 := by decide +kernel
example : leaves (AddMatToU32 2) [1, 2, 0xdeadbeef] exHeap = some 6 := by decide +kernel
example : leaves (ApplyMatToU8 exLib 1) [1, 2, 0xef] exHeap = some 3 := by decide +kernel

end WB
