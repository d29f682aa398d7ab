import Verif.Proof.SpMain

/-!
# C91 — which bits the randomness tests look at, and what happens to the files (`/repo/test/randomness`)
-/
namespace WB.sp

/-- Eight bits for every byte, the most significant bit first. -/
def msbFirst (data : Bytes) : List Nat := data.flatMap fun b => (List.range 8).map fun j => (b.testBit (7 - j)).toNat

/-- Eight bits for every byte, the least significant bit first. -/
def lsbFirst (data : Bytes) : List Nat := data.flatMap fun b => (List.range 8).map fun j => (b.testBit j).toNat

/-- The name has `.bin` in it, or so has the directory, or the name is absolute. -/
def Safe (cwd name : List Char) : Prop := ['.', 'b', 'i', 'n'] <:+: cwd ++ '/' :: name ∨ name.head? = some '/'

/-- C91, full statement: as the help text says, the bits are those of the file, least significant bit first unless `--be` is given. -/
def C91_statement : Prop := ∀ (fs : Files) (cwd name : List Char) (be : Bool) (data : Bytes), fs (resolve cwd name) = some data →
  ∃ fs', prepare fs cwd name be = .ok (fs', if be then msbFirst data else lsbFirst data)

theorem safe_iff (cwd name : List Char) : replaceBin (cwd ++ '/' :: name) ≠ resolve cwd name ↔ Safe cwd name := by
  unfold Safe
  cases name with
  | nil =>
    show replaceBin (cwd ++ ['/']) ≠ cwd ++ ['/'] ↔ _
    rw [Ne, replaceBin_eq, Classical.not_not]
    simp
  | cons c name =>
    by_cases hc : c = '/'
    · subst hc
      refine iff_of_true (fun h => ?_) (Or.inr rfl)
      have := congrArg List.length h
      rw [replaceBin_length] at this
      simp [resolve] at this
      omega
    · have : resolve cwd (c :: name) = cwd ++ '/' :: c :: name := by
        rw [resolve]
        intro x hx
        exact hc (List.cons.inj hx).1
      rw [this, Ne, replaceBin_eq, Classical.not_not]
      simp [hc]

/-- C91, what holds: if the file exists and the results go to another file, then the bits are those of the file in the order that is
the opposite of what the help text says, the file stays as it is, and no file but the one for the results changes. -/
theorem C91_order_partial (fs : Files) (cwd name : List Char) (be : Bool) (data : Bytes) (h : fs (resolve cwd name) = some data)
    (hs : Safe cwd name) : ∃ fs', prepare fs cwd name be = .ok (fs', if be then lsbFirst data else msbFirst data) ∧
      fs' (resolve cwd name) = some data ∧ ∃ out, ∀ p, p ≠ out → fs' p = fs p := by
  have h1 := (safe_iff cwd name).2 hs
  unfold prepare read_bits_from_file
  simp only [if_neg (Ne.symm h1), h]
  refine ⟨fun p => if p = replaceBin (cwd ++ '/' :: name) then some [] else fs p, ?_, ?_, replaceBin (cwd ++ '/' :: name),
    fun p hp => if_neg hp⟩
  · rw [C_pure_bind, readChunks_eq _ _ _ (Nat.le_refl _), List.nil_append]
    cases be <;> rfl
  · simp only [if_neg (Ne.symm h1), h]

/-- C91, what goes wrong: otherwise the file is emptied before it is read, whatever was in it, and the tests see no bits. -/
theorem C91_emptied_violated (fs : Files) (cwd name : List Char) (be : Bool) (hs : ¬ Safe cwd name) :
    ∃ fs', prepare fs cwd name be = .ok (fs', []) ∧ fs' (resolve cwd name) = some [] := by
  have h1 : replaceBin (cwd ++ '/' :: name) = resolve cwd name := Classical.not_not.1 fun h => hs ((safe_iff cwd name).1 h)
  unfold prepare read_bits_from_file
  simp only [if_pos h1.symm]
  refine ⟨fun p => if p = replaceBin (cwd ++ '/' :: name) then some [] else fs p, ?_, if_pos h1.symm⟩
  rw [C_pure_bind, readChunks_eq _ _ _ (Nat.le_refl _)]
  rfl

/-- C91: a file that does not exist is an error, if its name has `.bin` in it. -/
theorem C91_missing (fs : Files) (cwd name : List Char) (be : Bool) (h : fs (resolve cwd name) = none) (hs : Safe cwd name) :
    prepare fs cwd name be = .error .abort := by
  have h1 := (safe_iff cwd name).2 hs
  unfold prepare read_bits_from_file
  simp only [if_neg (Ne.symm h1), h]
  rfl

/-- C91: the order is never the documented one, except for files in which both orders agree. -/
theorem C91_order_violated (fs : Files) (cwd name : List Char) (be : Bool) (data : Bytes) (h : fs (resolve cwd name) = some data)
    (hs : Safe cwd name) (hd : msbFirst data ≠ lsbFirst data) :
    ¬ ∃ fs', prepare fs cwd name be = .ok (fs', if be then msbFirst data else lsbFirst data) := by
  obtain ⟨fs', h1, -⟩ := C91_order_partial fs cwd name be data h hs
  rw [h1]
  rintro ⟨f, hf⟩
  have := (Prod.mk.inj ((Except.ok.injEq _ _).mp hf)).2
  cases be
  · exact hd this
  · exact hd this.symm

theorem C91_violated : ¬ C91_statement := fun h =>
  C91_order_violated (fun _ => some [1]) "/tmp".toList "a.bin".toList false [1] rfl
    (Or.inl ⟨"/tmp/a".toList, [], rfl⟩) (by decide) (h _ _ _ _ _ rfl)

/-- The hypotheses of the theorems above can be met. -/
example : Safe "/home/u".toList "WBMatrix_8bits.bin".toList := Or.inl ⟨"/home/u/WBMatrix_8bits".toList, [], rfl⟩
example : ¬ Safe "/u".toList "x".toList := by unfold Safe; decide
example : resolve "/u".toList "x".toList = "/u/x".toList := rfl
example : msbFirst [0x80, 3] = [1, 0, 0, 0, 0, 0, 0, 0, 0, 0, 0, 0, 0, 0, 1, 1] := by decide
example : msbFirst [0x80, 3] ≠ lsbFirst [0x80, 3] := by decide

end WB.sp
