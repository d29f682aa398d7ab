import Verif.Proof.Random
import Verif.Prop.Examples

/-!
# C26 — the generator does not repeat within a period
-/
namespace WB

/-- The result of the call number `k` (counted from 0) of `cus_random`: `k` calls whose results are
dropped, then one more call. -/
def nthRandom : Nat → CM (BitVec 32)
  | 0 => cus_random
  | k + 1 => do
    let _ ← cus_random
    nthRandom k

theorem nthRandom_run (k : Nat) (w : World) :
    nthRandom k w = .ok (draw w.m_intermediateOffset (w.m_index + BitVec.ofNat 32 k),
      { w with m_index := w.m_index + BitVec.ofNat 32 (k + 1) }) := by
  induction k generalizing w with
  | zero => rw [nthRandom, cus_random_run]; simp
  | succ k ih =>
    have e : nthRandom (k + 1) w = nthRandom k { w with m_index := w.m_index + 1#32 } := rfl
    rw [e, ih]
    simp only
    have h1 : w.m_index + 1#32 + BitVec.ofNat 32 k = w.m_index + BitVec.ofNat 32 (k + 1) := by
      rw [BitVec.add_assoc]; congr 1; rw [Nat.add_comm, BitVec.ofNat_add]
    have h2 : w.m_index + 1#32 + BitVec.ofNat 32 (k + 1) =
        w.m_index + BitVec.ofNat 32 (k + 1 + 1) := by
      rw [BitVec.add_assoc]; congr 1; rw [Nat.add_comm (k + 1) 1]; exact (BitVec.ofNat_add 1 (k + 1)).symm
    rw [h1, h2]

theorem nthRandom_index_inj {w : World} {i j : Nat}
    (h : w.m_index + BitVec.ofNat 32 i = w.m_index + BitVec.ofNat 32 j) :
    i % 2 ^ 32 = j % 2 ^ 32 := by
  have : BitVec.ofNat 32 i = BitVec.ofNat 32 j := by simpa using h
  have := congrArg BitVec.toNat this
  simpa using this

/-- C26: two calls fewer than `2^32` calls apart return different values. -/
theorem C26_distinct (w : World) (i j : Nat) (hij : i < j) (hd : j - i < 2 ^ 32) :
    ∃ a b w1 w2, nthRandom i w = .ok (a, w1) ∧ nthRandom j w = .ok (b, w2) ∧ a ≠ b := by
  refine ⟨_, _, _, _, nthRandom_run i w, nthRandom_run j w, fun h => ?_⟩
  have := nthRandom_index_inj (draw_inj h)
  omega

/-- C26: every 32-bit value occurs exactly once among any `2^32` consecutive calls. -/
theorem C26_every_value_once (w : World) (start : Nat) (v : BitVec 32) :
    ∃! k, k < 2 ^ 32 ∧ ∃ w', nthRandom (start + k) w = .ok (v, w') := by
  obtain ⟨x, hx⟩ := bv_surj (fun _ _ h => draw_inj (o := w.m_intermediateOffset) h) v
  have hk : w.m_index + BitVec.ofNat 32 (start + (x - w.m_index - BitVec.ofNat 32 start).toNat) = x := by
    rw [BitVec.ofNat_add, BitVec.ofNat_toNat, BitVec.setWidth_eq, BitVec.sub_eq_add_neg,
      BitVec.sub_eq_add_neg]
    have := BitVec.add_left_neg (x := w.m_index)
    have := BitVec.add_left_neg (x := BitVec.ofNat 32 start)
    generalize BitVec.ofNat 32 start = s
    generalize w.m_index = m
    rw [show s + (x + -m + -s) = x - m by
      rw [BitVec.add_comm, BitVec.add_assoc, BitVec.add_left_neg, BitVec.add_zero, BitVec.sub_eq_add_neg]]
    rw [BitVec.add_comm, BitVec.sub_add_cancel]
  refine ⟨(x - w.m_index - BitVec.ofNat 32 start).toNat, ⟨BitVec.isLt _, ?_⟩, ?_⟩
  · exact ⟨_, (nthRandom_run _ w).trans (by rw [hk, hx])⟩
  · rintro k ⟨hlt, w', h⟩
    rw [nthRandom_run] at h
    injection h with h
    have h1 : draw w.m_intermediateOffset (w.m_index + BitVec.ofNat 32 (start + k)) = v :=
      congrArg Prod.fst h
    have h2 := draw_inj (h1.trans hx.symm)
    have := nthRandom_index_inj (h2.trans hk.symm)
    have h3 := (x - w.m_index - BitVec.ofNat 32 start).isLt
    omega

/-- C26: the sequence of results has period `2^32` … -/
theorem C26_period (w : World) (k : Nat) :
    ∃ a w1 w2, nthRandom k w = .ok (a, w1) ∧ nthRandom (k + 2 ^ 32) w = .ok (a, w2) := by
  have e : BitVec.ofNat 32 (k + 2 ^ 32) = BitVec.ofNat 32 k := by
    apply BitVec.eq_of_toNat_eq
    simp
  exact ⟨_, _, _, nthRandom_run k w, (nthRandom_run _ w).trans (by rw [e])⟩

/-- C26: … and no smaller one, from no starting point. -/
theorem C26_no_smaller_period (w : World) (start p : Nat) (hp : 0 < p) (hlt : p < 2 ^ 32) :
    ¬ ∀ k, start ≤ k → ∃ a w1 w2, nthRandom k w = .ok (a, w1) ∧
      nthRandom (k + p) w = .ok (a, w2) := by
  intro h
  obtain ⟨a, w1, w2, h1, h2⟩ := h start (Nat.le_refl _)
  obtain ⟨b, c, w3, w4, h3, h4, hne⟩ := C26_distinct w start (start + p) (by omega) (by omega)
  rw [h1] at h3; rw [h2] at h4
  cases h3; cases h4
  exact hne rfl

example : ∃ a b w1 w2, nthRandom 3 exWorld = .ok (a, w1) ∧
    nthRandom 1000000 exWorld = .ok (b, w2) ∧ a ≠ b :=
  C26_distinct exWorld 3 1000000 (by norm_num) (by norm_num)
example : (nthRandom 0 exWorld).toOption.map Prod.fst = some 659415392 := by decide +kernel

end WB
