import Verif.Proof.Parity
import Verif.Prop.Examples

/-!
# C23 — parity
-/
namespace WB
open Matrix

/-- C23: `xorU4` returns the parity of the number of one bits (of all eight bits of its argument). -/
theorem C23_xorU4 (env : Env) (x : BitVec 8) : xorU4 env x = .ok ((weight x % 2 : Nat) : Int) :=
  xorU4_eq env x

example : xorU4 exEnv 0x1 = .ok 1 := by decide +kernel
example : xorU4 exEnvBE 0x0 = .ok 0 := by decide +kernel

/-- C23: `xorU8` returns the parity of the number of one bits. -/
theorem C23_xorU8 (env : Env) (x : BitVec 8) : xorU8 env x = .ok ((weight x % 2 : Nat) : Int) :=
  xorU8_eq env x

example : xorU8 exEnv 0xf1 = .ok 1 := by decide +kernel
example : xorU8 exEnvBE 0xf0 = .ok 0 := by decide +kernel

/-- C23: `xorU16` returns the parity of the number of one bits. -/
theorem C23_xorU16 (env : Env) (x : BitVec 16) : xorU16 env x = .ok ((weight x % 2 : Nat) : Int) :=
  xorU16_eq env x

example : xorU16 exEnv 0xdef1 = .ok 1 := by decide +kernel
example : xorU16 exEnvBE 0xdef0 = .ok 0 := by decide +kernel

/-- C23: `xorU32` returns the parity of the number of one bits. -/
theorem C23_xorU32 (env : Env) (x : BitVec 32) : xorU32 env x = .ok ((weight x % 2 : Nat) : Int) :=
  xorU32_eq env x

example : xorU32 exEnv 0x9abcdef1 = .ok 0 := by decide +kernel
example : xorU32 exEnvBE 0x9abcdef0 = .ok 1 := by decide +kernel

/-- C23: `xorU64` returns the parity of the number of one bits. -/
theorem C23_xorU64 (env : Env) (x : BitVec 64) : xorU64 env x = .ok ((weight x % 2 : Nat) : Int) :=
  xorU64_eq env x

example : xorU64 exEnv 0x123456789abcdef1 = .ok 1 := by decide +kernel
example : xorU64 exEnvBE 0x123456789abcdef0 = .ok 0 := by decide +kernel

/-- C23: `xorU128` returns the parity of the number of one bits. -/
theorem C23_xorU128 (env : Env) (x : Vector (BitVec 64) 2) : xorU128 env x = .ok ((weightV x % 2 : Nat) : Int) :=
  xorU128_eq env x

example : xorU128 exEnv #v[0xa5a55a5a0ff0f00f, 0x123456789abcdef1] = .ok 1 := by decide +kernel
example : xorU128 exEnvBE #v[0xa5a55a5a0ff0f00f, 0x123456789abcdef0] = .ok 0 := by decide +kernel

/-- C23: `xorU256` returns the parity of the number of one bits. -/
theorem C23_xorU256 (env : Env) (x : Vector (BitVec 64) 4) : xorU256 env x = .ok ((weightV x % 2 : Nat) : Int) :=
  xorU256_eq env x

example : xorU256 exEnv #v[0xb5c3a17d9e2f6048, 0x1357fdb9eca86420, 0xa5a55a5a0ff0f00f, 0x123456789abcdef1] = .ok 1 := by decide +kernel
example : xorU256 exEnvBE #v[0xb5c3a17d9e2f6048, 0x1357fdb9eca86420, 0xa5a55a5a0ff0f00f, 0x123456789abcdef0] = .ok 0 := by decide +kernel

end WB
