import Verif.Model.SpBase
import Verif.Proof.Wp

/-!
# Python lists (helper lemmas)
-/
namespace WB.sp
variable {α : Type}

theorem ix_ok {l : List α} {i : Nat} (h : i < l.length) : ix l i = .ok l[i] := by
  simp [ix, List.getElem?_eq_getElem h]

theorem ix_err {l : List α} {i : Nat} (h : l.length ≤ i) : ix l i = .error .oob := by
  simp [ix, List.getElem?_eq_none h]

theorem ix_getD {l : List α} {i : Nat} (d : α) (h : i < l.length) : ix l i = .ok (l[i]?.getD d) := by
  simp [ix, List.getElem?_eq_getElem h]

theorem put_ok {l : List α} {i : Nat} (x : α) (h : i < l.length) : put l i x = .ok (l.set i x) := if_pos h

theorem put_err {l : List α} {i : Nat} (x : α) (h : l.length ≤ i) : put l i x = .error .oob := if_neg (by omega)

/-- `for i in range(N): l.append(…)` -/
theorem build_run (N : Nat) (g : Nat → α) (body : Nat → List α → C (List α))
    (h : ∀ i l, i < N → l = (List.range i).map g → body i l = .ok (l ++ [g i])) :
    forUp 0 N [] body = .ok ((List.range N).map g) := by
  rw [← Ok.eq]
  refine Ok.forUp (P := fun i l => l = (List.range i).map g) (Nat.zero_le _) rfl ?_ fun _ h => h
  rintro i l - hi rfl
  rw [h i _ hi rfl, Ok.ok_iff, List.range_succ, List.map_append]
  rfl

/-- `for t in l: v[f(t)] += 1` -/
theorem count_run {β : Type} (f : β → Nat) (l : List β) : ∀ v : List Nat, (∀ t ∈ l, f t < v.length) →
    Ok (l.foldlM (fun v t => do put v (f t) ((← ix v (f t)) + 1)) v) fun r =>
      r.length = v.length ∧ ∀ k, k < v.length → r[k]?.getD 0 = v[k]?.getD 0 + l.countP fun t => f t == k := by
  induction l with
  | nil => intro v _; simp
  | cons t l ih =>
    intro v h
    have ht := h t (List.mem_cons_self ..)
    rw [List.foldlM_cons, ix_getD 0 ht, C_pure_bind, put_ok _ ht, C_pure_bind]
    refine (ih _ fun t g => ?_).mono ?_
    · rw [List.length_set]
      exact h t (List.mem_cons_of_mem _ g)
    · rintro r ⟨h1, h2⟩
      rw [List.length_set] at h1 h2
      refine ⟨h1, fun k hk => ?_⟩
      rw [h2 k hk, List.countP_cons, List.getElem?_set]
      by_cases hf : f t = k
      · subst hf
        rw [if_pos rfl, if_pos ht]
        simp only [Option.getD_some, beq_self_eq_true, if_true]
        omega
      · rw [if_neg hf]
        simp [hf]

/-- `slice` of a part that exists -/
theorem slice_length {l : List α} {a b : Nat} (h : b ≤ l.length) : (slice l a b).length = b - a := by
  simp [slice]
  omega

theorem slice_get {l : List α} {a b i : Nat} (h : a + i < b) : (slice l a b)[i]? = l[a + i]? := by
  simp [slice, List.getElem?_drop, List.getElem?_take, h]

theorem mem_of_mem_slice {l : List α} {a b : Nat} {x : α} (h : x ∈ slice l a b) : x ∈ l :=
  List.mem_of_mem_take (List.mem_of_mem_drop h)

end WB.sp
