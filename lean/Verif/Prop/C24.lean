import Verif.Proof.Parity
import Verif.Prop.Examples

/-!
# C24 — Hamming weight
-/
namespace WB
open Matrix

/-- C24: `HWU4` returns the number of one bits (of all eight bits of its argument). -/
theorem C24_HWU4 (env : Env) (x : BitVec 8) : HWU4 env x = .ok ((weight x : Nat) : Int) :=
  HWU4_eq env x

example : HWU4 exEnv 0x1 = .ok 1 := by decide +kernel
example : HWU4 exEnvBE 0x1 = .ok 1 := by decide +kernel

/-- C24: `HWU8` returns the number of one bits. -/
theorem C24_HWU8 (env : Env) (x : BitVec 8) : HWU8 env x = .ok ((weight x : Nat) : Int) :=
  HWU8_eq env x

example : HWU8 exEnv 0xf1 = .ok 5 := by decide +kernel
example : HWU8 exEnvBE 0xf1 = .ok 5 := by decide +kernel

/-- C24: `HWU16` returns the number of one bits. -/
theorem C24_HWU16 (env : Env) (x : BitVec 16) : HWU16 env x = .ok ((weight x : Nat) : Int) :=
  HWU16_eq env x

example : HWU16 exEnv 0xdef1 = .ok 11 := by decide +kernel
example : HWU16 exEnvBE 0xdef1 = .ok 11 := by decide +kernel

/-- C24: `HWU32` returns the number of one bits. -/
theorem C24_HWU32 (env : Env) (x : BitVec 32) : HWU32 env x = .ok ((weight x : Nat) : Int) :=
  HWU32_eq env x

example : HWU32 exEnv 0x9abcdef1 = .ok 20 := by decide +kernel
example : HWU32 exEnvBE 0x9abcdef1 = .ok 20 := by decide +kernel

/-- C24: `HWU64` returns the number of one bits. -/
theorem C24_HWU64 (env : Env) (x : BitVec 64) : HWU64 env x = .ok ((weight x : Nat) : Int) :=
  HWU64_eq env x

example : HWU64 exEnv 0x123456789abcdef1 = .ok 33 := by decide +kernel
example : HWU64 exEnvBE 0x123456789abcdef1 = .ok 33 := by decide +kernel

/-- C24: `HWU128` returns the number of one bits. -/
theorem C24_HWU128 (env : Env) (x : Vector (BitVec 64) 2) : HWU128 env x = .ok ((weightV x : Nat) : Int) :=
  HWU128_eq env x

example : HWU128 exEnv #v[0xa5a55a5a0ff0f00f, 0x123456789abcdef1] = .ok 65 := by decide +kernel
example : HWU128 exEnvBE #v[0xa5a55a5a0ff0f00f, 0x123456789abcdef1] = .ok 65 := by decide +kernel

end WB
