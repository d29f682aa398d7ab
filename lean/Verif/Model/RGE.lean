import Verif.Model.Seed

/-!
# Reverse Gaussian elimination — `/repo/test/RGEMethod_test.c`

Generated by `tools/gen_methods.py`.
-/
namespace WB.rge

/-- `InvTMatM4` — `/repo/test/RGEMethod_test.c:31-57`. -/
def InvTMatM4 (Mat : M4) : CM M4 := do
  let Mat ← liftC (identityM4 Mat)
  reseedInt
  forDown 4 0 Mat fun i Mat => do
    let Mat ← forUp 0 4 Mat fun j Mat => do
      if j ≠ i then
        let r ← cus_random
        liftC do if (← umod r 2) != 0 then xorRow Mat j i else pure Mat
      else pure Mat
    if i < 3 then
      let r ← cus_random
      liftC do
        let p := i + 1 + (← umod r (BitVec.ofNat 32 (3 - i))).toNat
        swapRow Mat i p
    else pure Mat

/-- `InvTMatM8` — `/repo/test/RGEMethod_test.c:58-84`. -/
def InvTMatM8 (Mat : M8) : CM M8 := do
  let Mat ← liftC (identityM8 Mat)
  reseedInt
  forDown 8 0 Mat fun i Mat => do
    let Mat ← forUp 0 8 Mat fun j Mat => do
      if j ≠ i then
        let r ← cus_random
        liftC do if (← umod r 2) != 0 then xorRow Mat j i else pure Mat
      else pure Mat
    if i < 7 then
      let r ← cus_random
      liftC do
        let p := i + 1 + (← umod r (BitVec.ofNat 32 (7 - i))).toNat
        swapRow Mat i p
    else pure Mat

/-- `InvTMatM16` — `/repo/test/RGEMethod_test.c:85-111`. -/
def InvTMatM16 (Mat : M16) : CM M16 := do
  let Mat ← liftC (identityM16 Mat)
  reseedInt
  forDown 16 0 Mat fun i Mat => do
    let Mat ← forUp 0 16 Mat fun j Mat => do
      if j ≠ i then
        let r ← cus_random
        liftC do if (← umod r 2) != 0 then xorRow Mat j i else pure Mat
      else pure Mat
    if i < 15 then
      let r ← cus_random
      liftC do
        let p := i + 1 + (← umod r (BitVec.ofNat 32 (15 - i))).toNat
        swapRow Mat i p
    else pure Mat

/-- `InvTMatM32` — `/repo/test/RGEMethod_test.c:112-138`. -/
def InvTMatM32 (Mat : M32) : CM M32 := do
  let Mat ← liftC (identityM32 Mat)
  reseedInt
  forDown 32 0 Mat fun i Mat => do
    let Mat ← forUp 0 32 Mat fun j Mat => do
      if j ≠ i then
        let r ← cus_random
        liftC do if (← umod r 2) != 0 then xorRow Mat j i else pure Mat
      else pure Mat
    if i < 31 then
      let r ← cus_random
      liftC do
        let p := i + 1 + (← umod r (BitVec.ofNat 32 (31 - i))).toNat
        swapRow Mat i p
    else pure Mat

/-- `InvTMatM64` — `/repo/test/RGEMethod_test.c:139-165`. -/
def InvTMatM64 (Mat : M64) : CM M64 := do
  let Mat ← liftC (identityM64 Mat)
  reseedInt
  forDown 64 0 Mat fun i Mat => do
    let Mat ← forUp 0 64 Mat fun j Mat => do
      if j ≠ i then
        let r ← cus_random
        liftC do if (← umod r 2) != 0 then xorRow Mat j i else pure Mat
      else pure Mat
    if i < 63 then
      let r ← cus_random
      liftC do
        let p := i + 1 + (← umod r (BitVec.ofNat 32 (63 - i))).toNat
        swapRow Mat i p
    else pure Mat

/-- `InvTMatM128` — `/repo/test/RGEMethod_test.c:166-199`. -/
def InvTMatM128 (Mat : M128) : CM M128 := do
  let Mat ← liftC (identityM128 Mat)
  reseedInt
  forDown 128 0 Mat fun i Mat => do
    let Mat ← forUp 0 128 Mat fun j Mat => do
      if j ≠ i then
        let r ← cus_random
        liftC do if (← umod r 2) != 0 then xorWords [0, 1] Mat j i else pure Mat
      else pure Mat
    if i < 127 then
      let r ← cus_random
      liftC do
        let p := i + 1 + (← umod r (BitVec.ofNat 32 (127 - i))).toNat
        let temp0 ← rd2 Mat i 0
        let temp1 ← rd2 Mat i 1
        let Mat ← wr2 Mat i 0 (← rd2 Mat p 0)
        let Mat ← wr2 Mat i 1 (← rd2 Mat p 1)
        let Mat ← wr2 Mat p 0 temp0
        wr2 Mat p 1 temp1
    else pure Mat

/-- `InvTMatM256` — `/repo/test/RGEMethod_test.c:200-241`. -/
def InvTMatM256 (Mat : M256) : CM M256 := do
  let Mat ← liftC (identityM256 Mat)
  reseedInt
  forDown 256 0 Mat fun i Mat => do
    let Mat ← forUp 0 256 Mat fun j Mat => do
      if j ≠ i then
        let r ← cus_random
        liftC do if (← umod r 2) != 0 then xorWords [0, 1, 2, 3] Mat j i else pure Mat
      else pure Mat
    if i < 255 then
      let r ← cus_random
      liftC do
        let p := i + 1 + (← umod r (BitVec.ofNat 32 (255 - i))).toNat
        let temp0 ← rd2 Mat i 0
        let temp1 ← rd2 Mat i 1
        let temp2 ← rd2 Mat i 2
        let temp3 ← rd2 Mat i 3
        let Mat ← wr2 Mat i 0 (← rd2 Mat p 0)
        let Mat ← wr2 Mat i 1 (← rd2 Mat p 1)
        let Mat ← wr2 Mat i 2 (← rd2 Mat p 2)
        let Mat ← wr2 Mat i 3 (← rd2 Mat p 3)
        let Mat ← wr2 Mat p 0 temp0
        let Mat ← wr2 Mat p 1 temp1
        let Mat ← wr2 Mat p 2 temp2
        wr2 Mat p 3 temp3
    else pure Mat

end WB.rge
