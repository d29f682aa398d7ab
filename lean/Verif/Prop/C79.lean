import Verif.Proof.NtlGen

/-!
# C79 — `stream << m` prints a `RandMat` to the stream (false)
-/
namespace WB.ntl

/-- C79, full statement: the operator returns, and writes the size, the matrix and, if there is one, the inverse to the stream
it has been given. -/
def C79_statement : Prop :=
  ∀ (n : Nat) (A : Matrix (Fin n) (Fin n) (ZMod 2)) (I : MatGF2) (o : Out),
    ∃ o', RandMat.print ⟨n, ⟨n, n, A⟩, I⟩ o = .ok ((), o') ∧ o'.cout = o.cout ∧ ∃ t, t ≠ [] ∧ o'.stream = o.stream ++ t

/-- C79 fails: the operator never writes anything to the stream it has been given. -/
theorem C79_stream_violated (x : RandMat) (o o' : Out) (h : RandMat.print x o = .ok ((), o')) : o'.stream = o.stream := by
  exact print_stream x o o' h

/-- C79, what holds instead: the text goes to `cout`. -/
theorem C79_cout_partial (n : Nat) (A B : Matrix (Fin n) (Fin n) (ZMod 2)) (o : Out) :
    RandMat.print ⟨n, ⟨n, n, A⟩, ⟨n, n, B⟩⟩ o = .ok ((), ⟨o.cout ++ "Dim=".toList ++ (toString n).toList ++ ['\n'] ++
      matText A ++ ['\n'] ++ (if A.det = 0 then [] else matText B), o.stream⟩) := by
  rw [print_start]
  by_cases h : A.det = 0
  · rw [if_pos h, if_pos h, List.append_nil]
    rfl
  · rw [if_neg h, if_neg h]
    exact printMat_run B _

/-- C79 fails: a new object whose matrix was made with `init(n, 0)` has no inverse; if the matrix happens to be invertible,
printing reads elements that do not exist. -/
theorem C79_unset_inverse_violated (n : Nat) (hn : 1 ≤ n) (A : Matrix (Fin n) (Fin n) (ZMod 2)) (h : IsUnit A) (o : Out) :
    RandMat.print { (default : RandMat) with dim := n, mat := ⟨n, n, A⟩ } o = .error .oob := by
  show RandMat.print ⟨n, ⟨n, n, A⟩, default⟩ o = _
  rw [print_start, if_neg (unit_iff.1 h)]
  exact printMat_empty hn _

/-- C79: such an object can arise. -/
theorem C79_unset_inverse_reachable (stale : Nat → Nat → ZMod 2) {fuel : Nat} (hf : 1 ≤ fuel) {n : Nat} (hn : 3 ≤ n) (p : Nat) :
    ∃ (bits : Nat → ZMod 2) (A : Matrix (Fin n) (Fin n) (ZMod 2)) (s' : Rnd), IsUnit A ∧
      RandMat.init stale fuel default n false ⟨bits, p⟩ = .ok ({ (default : RandMat) with dim := n, mat := ⟨n, n, A⟩ }, s') := by
  obtain ⟨bits, r, s', e, rfl⟩ := (init_false_can stale hf default (chain_noUnitRow hn)).exists_bits p
  exact ⟨bits, chain n, s', chain_unit hn, e⟩

theorem C79_violated : ¬ C79_statement := by
  intro h
  obtain ⟨o', e, -, t, ht, hs⟩ := h 0 1 default ⟨[], []⟩
  have := C79_stream_violated _ _ _ e
  rw [this] at hs
  exact ht (List.append_eq_nil_iff.1 hs.symm).2

/-- The text for a matrix of size 2. -/
example (o : Out) : RandMat.print ⟨2, ⟨2, 2, !![1, 1; 0, 1]⟩, ⟨2, 2, !![1, 1; 0, 1]⟩⟩ o =
    .ok ((), ⟨o.cout ++ "Dim=2\n1 1 \n0 1 \n\n1 1 \n0 1 \n".toList, o.stream⟩) := by
  rw [C79_cout_partial, if_neg (by decide)]
  simp only [List.append_assoc]
  rfl

end WB.ntl
