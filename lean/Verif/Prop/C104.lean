import Verif.Prop.C65
import Verif.Prop.C100
import Verif.Prop.C101
import Verif.Prop.C103

/-!
# C104 — M4RI's own algorithms do what the programs that use M4RI need (`/repo/test/github1_M4RI/src`)
-/
namespace WB.m4w

/-- The words of a matrix that is given by its bits. -/
def toWords (a : m4ri.Mzd) : Mzd := pack a.nrows a.ncols a.bit

/-- The bits of a matrix that is given by its words. -/
def toBits (M : Mzd) : m4ri.Mzd := ⟨M.nrows, M.ncols, M.bit⟩

theorem toWords_rep {a : m4ri.Mzd} {r c : Nat} {A : Matrix (Fin r) (Fin c) (ZMod 2)} (h : m4ri.Is a A) : Rep (toWords a) A := by
  obtain ⟨rfl, rfl, h⟩ := h
  exact pack_rep h

theorem toWords_clean (a : m4ri.Mzd) : (toWords a).Clean := pack_clean _ _ _

theorem toBits_is {M : Mzd} {r c : Nat} {A : Matrix (Fin r) (Fin c) (ZMod 2)} (h : Rep M A) : m4ri.Is (toBits M) A := ⟨h.nrows, h.ncols, h.bit⟩

/-- The sizes for which M4RI's product is covered by C100. -/
def MulSize (k c : Nat) : Prop := 0 < k ∧ 0 < c ∧ (c < 54 → Fits k c)

/-- What is left of the surroundings of a call: uninitialised memory, matrices that do not lie in one block, `k`, addresses, random bits. -/
structure World where
  junk : Nat → Word
  multiblock : Mzd → Mzd → C Mzd
  env : MulEnv
  rnd : Nat → Nat → Nat → Bool

open Classical

/-- M4RI with the modelled algorithms.  Matrices with sizes that C100 to C103 do not cover (those whose transpose does not lie in one block of memory) go to the ideal library `exLib`. -/
noncomputable def wordLib (w : World) : m4ri.M4ri where
  mul a b := if MulSize a.ncols b.ncols ∧ a.ncols = b.nrows then
      match mzd_mul_m4rm (mzd_transpose w.junk w.multiblock) w.env (toWords a) (toWords b) with
      | .ok D => toBits D
      | .error _ => ⟨0, 0, fun _ _ => false⟩
    else exLib.mul a b
  inv a := if 0 < a.nrows ∧ a.nrows < 2 ^ 31 then
      match mzd_inv_m4ri (256 * ((a.nrows + 63) / 64) + 2) (toWords a) with
      | .ok D => toBits D
      | .error _ => ⟨0, 0, fun _ _ => false⟩
    else exLib.inv a
  transpose a := if 0 < a.nrows ∧ 0 < a.ncols ∧ Fits a.nrows a.ncols then
      match mzd_transpose w.junk w.multiblock (toWords a) with
      | .ok D => toBits D
      | .error _ => ⟨0, 0, fun _ _ => false⟩
    else exLib.transpose a
  rnd := w.rnd

/-- C104: the contract that C65 to C75 assume about M4RI is met by the modelled algorithms. -/
theorem C104_contract (w : World) : (wordLib w).Ok where
  mul := by
    intro a b r k c A B hk hc hA hB
    show m4ri.Is (if _ then _ else _) _
    split
    · rename_i h
      rw [hA.ncols, hB.ncols] at h
      obtain ⟨D, e, hD, -⟩ := C100_product w.junk w.multiblock w.env h.1.1 h.1.2.1 h.1.2.2 (toWords_rep hA) (toWords_clean a) (toWords_rep hB) (toWords_clean b)
      rw [e]
      exact toBits_is hD
    · exact exLib_ok.mul hk hc hA hB
  inv := by
    intro a n A hn hA hu
    show m4ri.Is (if _ then _ else _) _
    split
    · rename_i h
      rw [hA.nrows] at h ⊢
      obtain ⟨D, e, hD, -⟩ := C103_inverse h.1 h.2 (toWords_rep hA) hu (Nat.le_refl _)
      rw [e]
      exact toBits_is hD
    · exact exLib_ok.inv hn hA hu
  transpose := by
    intro a r c A hr hc hA
    show m4ri.Is (if _ then _ else _) _
    split
    · rename_i h
      rw [hA.nrows, hA.ncols] at h
      obtain ⟨D, e, hD, -⟩ := C101_transpose w.junk w.multiblock hr hc h.2.2 (toWords_rep hA) (toWords_clean a)
      rw [e]
      exact toBits_is hD
    · exact exLib_ok.transpose hr hc hA

/-- C104: for all sizes that the theorems cover, the product of `wordLib` is what the modelled `mzd_mul_m4rm` returns. -/
theorem C104_mul (w : World) {a b : m4ri.Mzd} (h : MulSize a.ncols b.ncols) (hab : a.ncols = b.nrows) :
    ∃ D, mzd_mul_m4rm (mzd_transpose w.junk w.multiblock) w.env (toWords a) (toWords b) = .ok D ∧ (wordLib w).mul a b = toBits D := by
  have hA : m4ri.Is a (m4ri.bitMat a.nrows b.nrows a.bit) := ⟨rfl, hab, fun _ _ => rfl⟩
  have hB : m4ri.Is b (m4ri.bitMat b.nrows b.ncols b.bit) := ⟨rfl, rfl, fun _ _ => rfl⟩
  obtain ⟨D, e, -⟩ := C100_product w.junk w.multiblock w.env (by rw [← hab]; exact h.1) h.2.1 (fun hc => by rw [← hab]; exact h.2.2 hc) (toWords_rep hA) (toWords_clean a) (toWords_rep hB) (toWords_clean b)
  refine ⟨D, e, ?_⟩
  show (if _ then _ else _) = _
  rw [if_pos ⟨h, hab⟩, e]

/-- C104: the same for the inverse, of every square matrix. -/
theorem C104_inv (w : World) {a : m4ri.Mzd} (h1 : 0 < a.nrows) (h2 : a.nrows < 2 ^ 31) (hsq : a.ncols = a.nrows) :
    ∃ D, (∀ fuel, 256 * ((a.nrows + 63) / 64) + 2 = fuel → mzd_inv_m4ri fuel (toWords a) = .ok D) ∧ (wordLib w).inv a = toBits D := by
  have hA : m4ri.Is a (m4ri.bitMat a.nrows a.nrows a.bit) := ⟨rfl, hsq, fun _ _ => rfl⟩
  obtain ⟨D, e, -⟩ := C103_square h1 h2 (toWords_rep hA) (Nat.le_refl _)
  refine ⟨D, fun fuel hf => by rw [← hf]; exact e, ?_⟩
  show (if _ then _ else _) = _
  rw [if_pos ⟨h1, h2⟩, e]

/-- C104: and for the transpose. -/
theorem C104_transpose (w : World) {a : m4ri.Mzd} (h1 : 0 < a.nrows) (h2 : 0 < a.ncols) (hf : Fits a.nrows a.ncols) :
    ∃ D, mzd_transpose w.junk w.multiblock (toWords a) = .ok D ∧ (wordLib w).transpose a = toBits D := by
  have hA : m4ri.Is a (m4ri.bitMat a.nrows a.ncols a.bit) := ⟨rfl, rfl, fun _ _ => rfl⟩
  obtain ⟨D, e, -⟩ := C101_transpose w.junk w.multiblock h1 h2 hf (toWords_rep hA) (toWords_clean a)
  refine ⟨D, e, ?_⟩
  show (if _ then _ else _) = _
  rw [if_pos ⟨h1, h2, hf⟩, e]

/-! ## What follows for the programs on top of M4RI -/

/-- C104, example of use: C65 for `ApplyMatToU32` with the modelled algorithms of M4RI instead of an assumption about M4RI. -/
theorem C104_ApplyMatToU32 (w : World) {s : m4ri.Heap} (hs : s.Ok) {mat : Nat} {A : Matrix (Fin 32) (Fin 32) (ZMod 2)} (hA : m4ri.Points s mat A) (x : BitVec 32) :
    ∃ y s', m4ri.ApplyMatToU32 (wordLib w) mat x s = .ok (y, s') ∧ vec32 y = A.mulVec (vec32 x) := by
  obtain ⟨y, e, h, _⟩ := C65_ApplyMatToU32 (C104_contract w) hs hA x
  exact ⟨y, _, e, h⟩

/-- C104, example of use: C65 for `GenMatGf2Inv`. -/
theorem C104_GenMatGf2Inv (w : World) {s : m4ri.Heap} (hs : s.Ok) {a n : Nat} {A : Matrix (Fin n) (Fin n) (ZMod 2)} (hn : 0 < n) (ha : m4ri.Points s a A) (hu : IsUnit A) :
    ∃ m, m4ri.GenMatGf2Inv (wordLib w) a s = .ok (s.next, m4ri.push s m) ∧ m4ri.Is m A⁻¹ :=
  C65_GenMatGf2Inv (C104_contract w) hs hn ha hu

/-- Surroundings in which all bits of uninitialised memory are set. -/
def exWorld : World := ⟨fun _ => -1, fun _ _ => .error .abort, ⟨fun _ _ => 3, false, 0⟩, fun _ _ _ => false⟩

example : MulSize 100 100 ∧ MulSize 32 1 ∧ Fits 100 100 := by unfold MulSize Fits; omega

/-- The inverse of a matrix of 100 rows, computed by the algorithm of M4RI. -/
example : m4ri.Is ((wordLib exWorld).inv ⟨100, 100, (pack 100 100 fun i j => decide (i = j ∨ i < j ∧ (i * j) % 3 = 1)).bit⟩) exU⁻¹ :=
  (C104_contract exWorld).inv (by decide) ⟨rfl, rfl, (pack_rep (A := exU) fun _ _ => rfl).bit⟩ exU_unit

/-- A matrix at an address, and a number. -/
def exHeap32 : m4ri.Heap := ⟨fun p => if p = 1 then some ⟨32, 32, fun i j => decide (i ≤ j)⟩ else none, 2, 0, []⟩

theorem exHeap32_ok : exHeap32.Ok := ⟨Nat.two_pos, rfl, fun p hp => if_neg (by have : 2 ≤ p := hp; omega)⟩

theorem exHeap32_points : m4ri.Points exHeap32 1 (m4ri.bitMat 32 32 fun i j => decide (i ≤ j)) := 
  ⟨⟨32, 32, fun i j => decide (i ≤ j)⟩, rfl, rfl, rfl, fun _ _ => rfl⟩

example : ∃ y s', m4ri.ApplyMatToU32 (wordLib exWorld) 1 0x1234 exHeap32 = .ok (y, s') ∧
    vec32 y = (m4ri.bitMat 32 32 fun i j => decide (i ≤ j)).mulVec (vec32 0x1234) := C104_ApplyMatToU32 exWorld exHeap32_ok exHeap32_points _

end WB.m4w
