import Verif.Model.Seed

/-!
# Rejection sampling — `/repo/test/WBGEMethod_test.c`

Generated by `tools/gen_methods.py`.
-/
namespace WB.wbge

/-- `InvTMatM4` — `/repo/test/WBGEMethod_test.c:26-35`, given up after `fuel` draws. -/
def InvTMatM4 (env : Env) (fuel : Nat) (Mat : M4) : CM M4 := do
  let temp ← randM4 (env.junkArr 8 4)
  let temp ← whileM (fun temp => do pure ((← isinvertM4 temp) == 0)) (fun temp => randM4 temp) fuel temp
  liftC (copyM4 temp Mat)

/-- `MatrixpairM4` — `/repo/test/WBGEMethod_test.c:97-101`. -/
def MatrixpairM4 (env : Env) (fuel : Nat) (Mat Mat_inv : M4) : CM (M4 × M4) := do
  let Mat ← InvTMatM4 env fuel Mat
  let Mat_inv ← liftC (invsM4 Mat Mat_inv)
  pure (Mat, Mat_inv)

/-- `InvTMatM8` — `/repo/test/WBGEMethod_test.c:36-45`, given up after `fuel` draws. -/
def InvTMatM8 (env : Env) (fuel : Nat) (Mat : M8) : CM M8 := do
  let temp ← randM8 (env.junkArr 8 8)
  let temp ← whileM (fun temp => do pure ((← isinvertM8 temp) == 0)) (fun temp => randM8 temp) fuel temp
  liftC (copyM8 temp Mat)

/-- `MatrixpairM8` — `/repo/test/WBGEMethod_test.c:102-106`. -/
def MatrixpairM8 (env : Env) (fuel : Nat) (Mat Mat_inv : M8) : CM (M8 × M8) := do
  let Mat ← InvTMatM8 env fuel Mat
  let Mat_inv ← liftC (invsM8 Mat Mat_inv)
  pure (Mat, Mat_inv)

/-- `InvTMatM16` — `/repo/test/WBGEMethod_test.c:46-55`, given up after `fuel` draws. -/
def InvTMatM16 (env : Env) (fuel : Nat) (Mat : M16) : CM M16 := do
  let temp ← randM16 (env.junkArr 16 16)
  let temp ← whileM (fun temp => do pure ((← isinvertM16 temp) == 0)) (fun temp => randM16 temp) fuel temp
  liftC (copyM16 temp Mat)

/-- `MatrixpairM16` — `/repo/test/WBGEMethod_test.c:107-111`. -/
def MatrixpairM16 (env : Env) (fuel : Nat) (Mat Mat_inv : M16) : CM (M16 × M16) := do
  let Mat ← InvTMatM16 env fuel Mat
  let Mat_inv ← liftC (invsM16 Mat Mat_inv)
  pure (Mat, Mat_inv)

/-- `InvTMatM32` — `/repo/test/WBGEMethod_test.c:56-65`, given up after `fuel` draws. -/
def InvTMatM32 (env : Env) (fuel : Nat) (Mat : M32) : CM M32 := do
  let temp ← randM32 (env.junkArr 32 32)
  let temp ← whileM (fun temp => do pure ((← isinvertM32 temp) == 0)) (fun temp => randM32 temp) fuel temp
  liftC (copyM32 temp Mat)

/-- `MatrixpairM32` — `/repo/test/WBGEMethod_test.c:112-116`. -/
def MatrixpairM32 (env : Env) (fuel : Nat) (Mat Mat_inv : M32) : CM (M32 × M32) := do
  let Mat ← InvTMatM32 env fuel Mat
  let Mat_inv ← liftC (invsM32 Mat Mat_inv)
  pure (Mat, Mat_inv)

/-- `InvTMatM64` — `/repo/test/WBGEMethod_test.c:66-75`, given up after `fuel` draws. -/
def InvTMatM64 (env : Env) (fuel : Nat) (Mat : M64) : CM M64 := do
  let temp ← randM64 env (env.junkArr 64 64)
  let temp ← whileM (fun temp => do pure ((← isinvertM64 temp) == 0)) (fun temp => randM64 env temp) fuel temp
  liftC (copyM64 temp Mat)

/-- `MatrixpairM64` — `/repo/test/WBGEMethod_test.c:117-121`. -/
def MatrixpairM64 (env : Env) (fuel : Nat) (Mat Mat_inv : M64) : CM (M64 × M64) := do
  let Mat ← InvTMatM64 env fuel Mat
  let Mat_inv ← liftC (invsM64 Mat Mat_inv)
  pure (Mat, Mat_inv)

/-- `InvTMatM128` — `/repo/test/WBGEMethod_test.c:76-85`, given up after `fuel` draws. -/
def InvTMatM128 (env : Env) (fuel : Nat) (Mat : M128) : CM M128 := do
  let temp ← randM128 env (env.junkArr2 64 2 128)
  let temp ← whileM (fun temp => do pure ((← isinvertM128 temp) == 0)) (fun temp => randM128 env temp) fuel temp
  liftC (copyM128 temp Mat)

/-- `MatrixpairM128` — `/repo/test/WBGEMethod_test.c:122-126`. -/
def MatrixpairM128 (env : Env) (fuel : Nat) (Mat Mat_inv : M128) : CM (M128 × M128) := do
  let Mat ← InvTMatM128 env fuel Mat
  let Mat_inv ← liftC (invsM128 Mat Mat_inv)
  pure (Mat, Mat_inv)

/-- `InvTMatM256` — `/repo/test/WBGEMethod_test.c:86-95`, given up after `fuel` draws. -/
def InvTMatM256 (env : Env) (fuel : Nat) (Mat : M256) : CM M256 := do
  let temp ← randM256 env (env.junkArr2 64 4 256)
  let temp ← whileM (fun temp => do pure ((← isinvertM256 temp) == 0)) (fun temp => randM256 env temp) fuel temp
  liftC (copyM256 temp Mat)

/-- `MatrixpairM256` — `/repo/test/WBGEMethod_test.c:127-131`. -/
def MatrixpairM256 (env : Env) (fuel : Nat) (Mat Mat_inv : M256) : CM (M256 × M256) := do
  let Mat ← InvTMatM256 env fuel Mat
  let Mat_inv ← liftC (invsM256 Mat Mat_inv)
  pure (Mat, Mat_inv)

end WB.wbge
