import Verif.Proof.Affine
import Verif.Prop.Examples

/-!
# C18 — affine pairs are mutually inverse
-/
namespace WB
open Matrix

set_option maxRecDepth 20000

/-- C18: `genaffinepairM4` always succeeds and its two affine maps undo each other in both orders. -/
theorem C18_genaffinepairM4 (env : Env) (f0 g0 : Aff4) (w : World) :
    ∃ f g w', genaffinepairM4 env f0 g0 w = .ok ((f, g), w') ∧
      ∀ (x : BitVec 8), Clean4 x → 
        (∃ y, affineU4 env f x = .ok y ∧ affineU4 env g y = .ok x) ∧
        (∃ y, affineU4 env g x = .ok y ∧ affineU4 env f y = .ok x) := by
  obtain ⟨⟨⟨f, g⟩, w'⟩, h, hM, hV, hmf, hmg, hvf, hvg, hw⟩ := genaffinepairM4_ok env f0 g0 w
  refine ⟨f, g, w', h, ?_⟩
  intro x hx
  constructor
  · obtain ⟨y, hy, e1, hc1⟩ := affineU4_ok env f x
    obtain ⟨x', hx', e2, hc2⟩ := affineU4_ok env g y
    have e : x' = x := vec4_inj (hc2 hvg) hx (by rw [e2, e1, hV]; exact aff_cancel (mat_comm hM) _ _)
    exact ⟨y, hy, e ▸ hx'⟩
  · obtain ⟨y, hy, e1, hc3⟩ := affineU4_ok env g x
    obtain ⟨x', hx', e2, hc4⟩ := affineU4_ok env f y
    have e : x' = x := vec4_inj (hc4 hvf) hx (by rw [e2, e1, hV]; exact aff_cancel' hM _ _)
    exact ⟨y, hy, e ▸ hx'⟩

example : (genaffinepairM4 exEnv ⟨exB4, 1⟩ ⟨exB4, 2⟩ exWorld).toOption.isSome := by decide +kernel

example : Clean4 exX4 := by decide

/-- C18: `genaffinepairM8` always succeeds and its two affine maps undo each other in both orders. -/
theorem C18_genaffinepairM8 (env : Env) (f0 g0 : Aff8) (w : World) :
    ∃ f g w', genaffinepairM8 env f0 g0 w = .ok ((f, g), w') ∧
      ∀ (x : BitVec 8), 
        (∃ y, affineU8 env f x = .ok y ∧ affineU8 env g y = .ok x) ∧
        (∃ y, affineU8 env g x = .ok y ∧ affineU8 env f y = .ok x) := by
  obtain ⟨⟨⟨f, g⟩, w'⟩, h, hM, hV, hw⟩ := genaffinepairM8_ok env f0 g0 w
  refine ⟨f, g, w', h, ?_⟩
  intro x
  constructor
  · obtain ⟨y, hy, e1⟩ := affineU8_ok env f x
    obtain ⟨x', hx', e2⟩ := affineU8_ok env g y
    have e : x' = x := vec8_inj (by rw [e2, e1, hV]; exact aff_cancel (mat_comm hM) _ _)
    exact ⟨y, hy, e ▸ hx'⟩
  · obtain ⟨y, hy, e1⟩ := affineU8_ok env g x
    obtain ⟨x', hx', e2⟩ := affineU8_ok env f y
    have e : x' = x := vec8_inj (by rw [e2, e1, hV]; exact aff_cancel' hM _ _)
    exact ⟨y, hy, e ▸ hx'⟩

example : (genaffinepairM8 exEnv ⟨exB8, 1⟩ ⟨exB8, 2⟩ exWorld).toOption.isSome := by decide +kernel

/-- C18: `genaffinepairM16` always succeeds and its two affine maps undo each other in both orders. -/
theorem C18_genaffinepairM16 (env : Env) (f0 g0 : Aff16) (w : World) :
    ∃ f g w', genaffinepairM16 env f0 g0 w = .ok ((f, g), w') ∧
      ∀ (x : BitVec 16), 
        (∃ y, affineU16 env f x = .ok y ∧ affineU16 env g y = .ok x) ∧
        (∃ y, affineU16 env g x = .ok y ∧ affineU16 env f y = .ok x) := by
  obtain ⟨⟨⟨f, g⟩, w'⟩, h, hM, hV, hw⟩ := genaffinepairM16_ok env f0 g0 w
  refine ⟨f, g, w', h, ?_⟩
  intro x
  constructor
  · obtain ⟨y, hy, e1⟩ := affineU16_ok env f x
    obtain ⟨x', hx', e2⟩ := affineU16_ok env g y
    have e : x' = x := vec16_inj (by rw [e2, e1, hV]; exact aff_cancel (mat_comm hM) _ _)
    exact ⟨y, hy, e ▸ hx'⟩
  · obtain ⟨y, hy, e1⟩ := affineU16_ok env g x
    obtain ⟨x', hx', e2⟩ := affineU16_ok env f y
    have e : x' = x := vec16_inj (by rw [e2, e1, hV]; exact aff_cancel' hM _ _)
    exact ⟨y, hy, e ▸ hx'⟩

example : ∃ p, genaffinepairM16 exEnv ⟨exB16, exX16⟩ ⟨exA16, exX16⟩ exWorld = .ok p := by
  obtain ⟨p, h, _⟩ := genaffinepairM16_ok exEnv ⟨exB16, exX16⟩ ⟨exA16, exX16⟩ exWorld
  exact ⟨p, h⟩

/-- C18: `genaffinepairM32` always succeeds and its two affine maps undo each other in both orders. -/
theorem C18_genaffinepairM32 (env : Env) (f0 g0 : Aff32) (w : World) :
    ∃ f g w', genaffinepairM32 env f0 g0 w = .ok ((f, g), w') ∧
      ∀ (x : BitVec 32), 
        (∃ y, affineU32 env f x = .ok y ∧ affineU32 env g y = .ok x) ∧
        (∃ y, affineU32 env g x = .ok y ∧ affineU32 env f y = .ok x) := by
  obtain ⟨⟨⟨f, g⟩, w'⟩, h, hM, hV, hw⟩ := genaffinepairM32_ok env f0 g0 w
  refine ⟨f, g, w', h, ?_⟩
  intro x
  constructor
  · obtain ⟨y, hy, e1⟩ := affineU32_ok env f x
    obtain ⟨x', hx', e2⟩ := affineU32_ok env g y
    have e : x' = x := vec32_inj (by rw [e2, e1, hV]; exact aff_cancel (mat_comm hM) _ _)
    exact ⟨y, hy, e ▸ hx'⟩
  · obtain ⟨y, hy, e1⟩ := affineU32_ok env g x
    obtain ⟨x', hx', e2⟩ := affineU32_ok env f y
    have e : x' = x := vec32_inj (by rw [e2, e1, hV]; exact aff_cancel' hM _ _)
    exact ⟨y, hy, e ▸ hx'⟩

example : ∃ p, genaffinepairM32 exEnv ⟨exB32, exX32⟩ ⟨exA32, exX32⟩ exWorld = .ok p := by
  obtain ⟨p, h, _⟩ := genaffinepairM32_ok exEnv ⟨exB32, exX32⟩ ⟨exA32, exX32⟩ exWorld
  exact ⟨p, h⟩

/-- C18: `genaffinepairM64` always succeeds and its two affine maps undo each other in both orders. -/
theorem C18_genaffinepairM64 (env : Env) (f0 g0 : Aff64) (w : World) :
    ∃ f g w', genaffinepairM64 env f0 g0 w = .ok ((f, g), w') ∧
      ∀ (x : BitVec 64), 
        (∃ y, affineU64 env f x = .ok y ∧ affineU64 env g y = .ok x) ∧
        (∃ y, affineU64 env g x = .ok y ∧ affineU64 env f y = .ok x) := by
  obtain ⟨⟨⟨f, g⟩, w'⟩, h, hM, hV, hw⟩ := genaffinepairM64_ok env f0 g0 w
  refine ⟨f, g, w', h, ?_⟩
  intro x
  constructor
  · obtain ⟨y, hy, e1⟩ := affineU64_ok env f x
    obtain ⟨x', hx', e2⟩ := affineU64_ok env g y
    have e : x' = x := vec64_inj (by rw [e2, e1, hV]; exact aff_cancel (mat_comm hM) _ _)
    exact ⟨y, hy, e ▸ hx'⟩
  · obtain ⟨y, hy, e1⟩ := affineU64_ok env g x
    obtain ⟨x', hx', e2⟩ := affineU64_ok env f y
    have e : x' = x := vec64_inj (by rw [e2, e1, hV]; exact aff_cancel' hM _ _)
    exact ⟨y, hy, e ▸ hx'⟩

example : ∃ p, genaffinepairM64 exEnv ⟨exB64, exX64⟩ ⟨exA64, exX64⟩ exWorld = .ok p := by
  obtain ⟨p, h, _⟩ := genaffinepairM64_ok exEnv ⟨exB64, exX64⟩ ⟨exA64, exX64⟩ exWorld
  exact ⟨p, h⟩

/-- C18: `genaffinepairM128` always succeeds and its two affine maps undo each other in both orders. -/
theorem C18_genaffinepairM128 (env : Env) (f0 g0 : Aff128) (w : World) :
    ∃ f g w', genaffinepairM128 env f0 g0 w = .ok ((f, g), w') ∧
      ∀ (x : Vector (BitVec 64) 2) (z1 z2 z3 z4 : Vector (BitVec 64) 2), 
        (∃ y, affineU128 env f x z1 = .ok y ∧ affineU128 env g y z2 = .ok x) ∧
        (∃ y, affineU128 env g x z3 = .ok y ∧ affineU128 env f y z4 = .ok x) := by
  obtain ⟨⟨⟨f, g⟩, w'⟩, h, hM, hV, hw⟩ := genaffinepairM128_ok env f0 g0 w
  refine ⟨f, g, w', h, ?_⟩
  intro x z1 z2 z3 z4
  constructor
  · obtain ⟨y, hy, e1⟩ := affineU128_ok env f x z1
    obtain ⟨x', hx', e2⟩ := affineU128_ok env g y z2
    have e : x' = x := vec128_inj (by rw [e2, e1, hV]; exact aff_cancel (mat_comm hM) _ _)
    exact ⟨y, hy, e ▸ hx'⟩
  · obtain ⟨y, hy, e1⟩ := affineU128_ok env g x z3
    obtain ⟨x', hx', e2⟩ := affineU128_ok env f y z4
    have e : x' = x := vec128_inj (by rw [e2, e1, hV]; exact aff_cancel' hM _ _)
    exact ⟨y, hy, e ▸ hx'⟩

example : ∃ p, genaffinepairM128 exEnv ⟨exB128, exX128⟩ ⟨exA128, exX128⟩ exWorld = .ok p := by
  obtain ⟨p, h, _⟩ := genaffinepairM128_ok exEnv ⟨exB128, exX128⟩ ⟨exA128, exX128⟩ exWorld
  exact ⟨p, h⟩

end WB
