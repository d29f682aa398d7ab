import Verif.Proof.Inj
import Verif.Prop.Examples

/-!
# C08 — vector equality test
-/
namespace WB
open Matrix

set_option maxRecDepth 20000

/-- C08: `isequalV4` decides equality of vector objects. -/
theorem C08_isequalV4 (u v : V4) : isequalV4 u v = .ok (if u = v then 1 else 0) := by
  unfold isequalV4
  by_cases h : u = v
  · subst h; simp; rfl
  · simp [h]; rfl

example : isequalV4 exX4 0x3 = .ok 0 := by decide +kernel
example : isequalV4 exX4 exX4 = .ok 1 := by decide +kernel

/-- C08: `isequalV8` decides equality of vector objects. -/
theorem C08_isequalV8 (u v : V8) : isequalV8 u v = .ok (if u = v then 1 else 0) := by
  unfold isequalV8
  by_cases h : u = v
  · subst h; simp; rfl
  · simp [h]; rfl

example : isequalV8 exX8 0x3 = .ok 0 := by decide +kernel
example : isequalV8 exX8 exX8 = .ok 1 := by decide +kernel

/-- C08: `isequalV16` decides equality of vector objects. -/
theorem C08_isequalV16 (u v : V16) : isequalV16 u v = .ok (if u = v then 1 else 0) := by
  unfold isequalV16
  by_cases h : u = v
  · subst h; simp; rfl
  · simp [h]; rfl

example : isequalV16 exX16 0x3 = .ok 0 := by decide +kernel
example : isequalV16 exX16 exX16 = .ok 1 := by decide +kernel

/-- C08: `isequalV32` decides equality of vector objects. -/
theorem C08_isequalV32 (u v : V32) : isequalV32 u v = .ok (if u = v then 1 else 0) := by
  unfold isequalV32
  by_cases h : u = v
  · subst h; simp; rfl
  · simp [h]; rfl

example : isequalV32 exX32 0x3 = .ok 0 := by decide +kernel
example : isequalV32 exX32 exX32 = .ok 1 := by decide +kernel

/-- C08: `isequalV64` decides equality of vector objects. -/
theorem C08_isequalV64 (u v : V64) : isequalV64 u v = .ok (if u = v then 1 else 0) := by
  unfold isequalV64
  by_cases h : u = v
  · subst h; simp; rfl
  · simp [h]; rfl

example : isequalV64 exX64 0x3 = .ok 0 := by decide +kernel
example : isequalV64 exX64 exX64 = .ok 1 := by decide +kernel

/-- C08: `isequalV128` decides equality of vector objects. -/
theorem C08_isequalV128 (u v : V128) : isequalV128 u v = .ok (if u = v then 1 else 0) := by
  unfold isequalV128
  rw [rd_ok _ _ (by omega : 0 < 2), rd_ok _ _ (by omega : 0 < 2), rd_ok _ _ (by omega : 1 < 2),
    rd_ok _ _ (by omega : 1 < 2)]
  simp only [C_pure_bind]
  rw [if_congr (vecEq2 u v) rfl rfl]
  by_cases h0 : u[0] = v[0] <;> by_cases h1 : u[1] = v[1] <;> simp [h0, h1] <;> rfl

example : isequalV128 exX128 #v[0x0, 0x3] = .ok 0 := by decide +kernel
example : isequalV128 exX128 exX128 = .ok 1 := by decide +kernel

/-- C08 fails for `isequalV256`: it compares only the first two of the four words, so it
reports different vectors as equal.  (The full statement would be
`∀ u v, isequalV256 u v = .ok (if u = v then 1 else 0)`.) -/
theorem C08_isequalV256_violated :
    ¬ ∀ u v : V256, isequalV256 u v = .ok (if u = v then 1 else 0) := by
  intro h
  have := h #v[0, 0, 0, 0] #v[0, 0, 0, 1]
  revert this
  decide +kernel

/-- C08, what `isequalV256` does compute: equality of the first 128 bits.  Missing: words 2
and 3 are never looked at. -/
theorem C08_isequalV256_partial (u v : V256) :
    isequalV256 u v = .ok (if u[0] = v[0] ∧ u[1] = v[1] then 1 else 0) := by
  unfold isequalV256
  rw [rd_ok _ _ (by omega : 0 < 4), rd_ok _ _ (by omega : 0 < 4), rd_ok _ _ (by omega : 1 < 4),
    rd_ok _ _ (by omega : 1 < 4)]
  simp only [C_pure_bind]
  by_cases h0 : u[0] = v[0] <;> by_cases h1 : u[1] = v[1] <;> simp [h0, h1] <;> rfl

/-- C08: the answer 0 of `isequalV256` can be trusted. -/
theorem C08_isequalV256_zero (u v : V256) (h : isequalV256 u v = .ok 0) : u ≠ v := by
  rintro rfl
  rw [C08_isequalV256_partial] at h
  simp at h

/-- C08: for every vector there are `2^128 - 1` other vectors that `isequalV256` takes for equal:
any change of words 2 and 3 goes unnoticed. -/
theorem C08_isequalV256_blind (u : V256) (a b : BitVec 64) :
    isequalV256 u #v[u[0], u[1], a, b] = .ok 1 := by
  rw [C08_isequalV256_partial]; simp

example : isequalV256 exX256 #v[1, 2, 3, 4] = .ok 0 := by decide +kernel

end WB
