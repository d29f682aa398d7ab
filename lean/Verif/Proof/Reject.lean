import Verif.Proof.Gf2Check
import Verif.Proof.Methods

/-!
# Rejection sampling: draw until the matrix is invertible
-/
namespace WB
open Matrix

/-- The seed of the `i`-th reseeding from `w`. -/
def seedAt (w : World) (i : Nat) : BitVec 32 :=
  (w.randseed + BitVec.ofNat 32 i) ^^^ w.clock (w.now + i)

/-- The globals after `i` reseedings, each followed by `K` draws. -/
def after (K : Nat) (w : World) : Nat → World
  | 0 => w
  | i + 1 => (after K w i).seeded.adv K

theorem after_fields (K : Nat) (w : World) (i : Nat) :
    (after K w i).randseed = w.randseed + BitVec.ofNat 32 i ∧ (after K w i).now = w.now + i ∧
      (after K w i).clock = w.clock := by
  induction i with
  | zero => simp [after]
  | succ i ih =>
    obtain ⟨h1, h2, h3⟩ := ih
    refine ⟨?_, ?_, ?_⟩
    · show (after K w i).randseed + 1#32 = _
      rw [h1, BitVec.ofNat_add, BitVec.add_assoc]
    · show (after K w i).now + 1 = _
      rw [h2]; omega
    · show (after K w i).clock = _
      exact h3

theorem seedOf_after (K : Nat) (w : World) (i : Nat) : seedOf (after K w i) = seedAt w i := by
  obtain ⟨h1, h2, h3⟩ := after_fields K w i
  unfold seedOf seedAt
  rw [h1, h2, h3]

section
variable {α : Type} {rand : α → CM α} {cond : α → C Bool} {gen : BitVec 32 → α} {bad : BitVec 32 → Bool}
  {K : Nat}

theorem while_ok (hr : ∀ a w, rand a w = .ok (gen (seedOf w), w.seeded.adv K))
    (hc : ∀ s, cond (gen s) = .ok (bad s)) (w : World) (m i fuel : Nat)
    (hb : ∀ j, j < m → bad (seedAt w (i + j)) = true) (hg : bad (seedAt w (i + m)) = false)
    (hf : m < fuel) : whileM cond rand fuel (gen (seedAt w i)) (after K w (i + 1)) =
      .ok (gen (seedAt w (i + m)), after K w (i + m + 1)) := by
  induction m generalizing i fuel with
  | zero =>
    obtain ⟨f, rfl⟩ : ∃ f, fuel = f + 1 := ⟨fuel - 1, by omega⟩
    unfold whileM
    rw [hc, CM_bind_run (liftC_run _ rfl)]
    rw [show bad (seedAt w i) = false from hg]
    rfl
  | succ m ih =>
    obtain ⟨f, rfl⟩ : ∃ f, fuel = f + 1 := ⟨fuel - 1, by omega⟩
    unfold whileM
    rw [hc, CM_bind_run (liftC_run _ rfl)]
    rw [show bad (seedAt w i) = true from hb 0 (by omega), if_pos rfl,
      CM_bind_run (hr _ _), seedOf_after]
    have := ih (i + 1) f (fun j hj => by rw [show i + 1 + j = i + (j + 1) by omega]; exact hb _ (by omega))
      (by rw [show i + 1 + m = i + (m + 1) by omega]; exact hg) (by omega)
    rw [show i + 1 + m = i + (m + 1) by omega] at this
    exact this

theorem while_diverge (hr : ∀ a w, rand a w = .ok (gen (seedOf w), w.seeded.adv K))
    (hc : ∀ s, cond (gen s) = .ok (bad s)) (w : World) (i fuel : Nat)
    (hb : ∀ j, j < fuel → bad (seedAt w (i + j)) = true) :
    whileM cond rand fuel (gen (seedAt w i)) (after K w (i + 1)) = .error .diverge := by
  induction fuel generalizing i with
  | zero => rfl
  | succ f ih =>
    unfold whileM
    rw [hc, CM_bind_run (liftC_run _ rfl)]
    rw [show bad (seedAt w i) = true from hb 0 (by omega), if_pos rfl,
      CM_bind_run (hr _ _), seedOf_after]
    exact ih (i + 1) (fun j hj => by rw [show i + 1 + j = i + (j + 1) by omega]; exact hb _ (by omega))

/-- The first good attempt, or divergence. -/
theorem reject_run (hr : ∀ a w, rand a w = .ok (gen (seedOf w), w.seeded.adv K))
    (hc : ∀ s, cond (gen s) = .ok (bad s)) (a : α) (w : World) (fuel : Nat) :
    (∃ m < fuel, (∀ j < m, bad (seedAt w j) = true) ∧ bad (seedAt w m) = false ∧
      (do let t ← rand a; whileM cond rand fuel t) w =
        .ok (gen (seedAt w m), after K w (m + 1))) ∨
    ((∀ j < fuel, bad (seedAt w j) = true) ∧
      (do let t ← rand a; whileM cond rand fuel t) w = .error .diverge) := by
  have h0 : rand a w = .ok (gen (seedAt w 0), after K w 1) := by
    rw [hr, ← seedOf_after K w 0]; rfl
  by_cases h : ∃ m, m < fuel ∧ bad (seedAt w m) = false
  · left
    classical
    have hs := Nat.find_spec h
    refine ⟨Nat.find h, hs.1, ?_, hs.2, ?_⟩
    · intro j hj
      have := Nat.find_min h hj
      have hj' : j < fuel := by have := hs.1; omega
      cases hb : bad (seedAt w j)
      · exact absurd ⟨hj', hb⟩ this
      · rfl
    · rw [CM_bind_run h0]
      have := while_ok hr hc w (Nat.find h) 0 fuel (fun j hj => ?_) (by simpa using hs.2) hs.1
      · simpa using this
      · have hm := Nat.find_min h hj
        have hj' : j < fuel := by have := hs.1; omega
        rw [Nat.zero_add]
        cases hb : bad (seedAt w j)
        · exact absurd ⟨hj', hb⟩ hm
        · rfl
  · right
    have hb : ∀ j < fuel, bad (seedAt w j) = true := by
      intro j hj
      cases hb : bad (seedAt w j)
      · exact absurd ⟨j, hj, hb⟩ h
      · rfl
    refine ⟨hb, ?_⟩
    rw [CM_bind_run h0]
    exact while_diverge hr hc w 0 fuel (fun j hj => by rw [Nat.zero_add]; exact hb j hj)

end

/-- With a constant clock every seed comes up within `2^32` attempts. -/
theorem seedAt_surj (w : World) (N : Nat) (c s : BitVec 32)
    (hc : ∀ k, N ≤ k → k < N + 2 ^ 32 → w.clock (w.now + k) = c) :
    ∃ i, i < N + 2 ^ 32 ∧ seedAt w i = s := by
  have hlt := ((s ^^^ c) - w.randseed - BitVec.ofNat 32 N).isLt
  refine ⟨N + ((s ^^^ c) - w.randseed - BitVec.ofNat 32 N).toNat, by omega, ?_⟩
  unfold seedAt
  rw [hc _ (by omega) (by omega), BitVec.ofNat_add, BitVec.ofNat_toNat, BitVec.setWidth_eq]
  have : ∀ r n t : BitVec 32, r + (n + (t - r - n)) = t := by
    intro r n t
    grind
  rw [this, BitVec.xor_assoc, BitVec.xor_self, BitVec.xor_zero]

end WB
