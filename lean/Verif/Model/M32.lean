import Verif.Model.M16

/-!
# 32-bit functions of `/repo/src/WBMatrix/WBMatrix.c`

Generated once by `tools/gen_small.py`; kept under version control as source.
A parameter that is an output pointer in C carries the old contents of its target and the
function returns the new contents.
-/
namespace WB

/-- `initM32` — `/repo/src/WBMatrix/WBMatrix.c:71-78`. -/
def initM32 (Mat : M32) : C M32 :=
  forUp 0 32 Mat fun i Mat => wr Mat i 0

/-- `initV32` — `/repo/src/WBMatrix/WBMatrix.c:119-122`. -/
def initV32 (_Vec : V32) : C V32 := pure 0

/-- `randM32` — `/repo/src/WBMatrix/WBMatrix.c:166-174`. -/
def randM32 (Mat : M32) : CM M32 := do
  reseed
  forUp 0 32 Mat fun i Mat => do
    let r ← cus_random
    liftC (wr Mat i (r))

/-- `randV32` — `/repo/src/WBMatrix/WBMatrix.c:324-328`. -/
def randV32 (_Vec : V32) : CM V32 := do
  reseed
  let r ← cus_random
  pure (r)

/-- `identityM32` — `/repo/src/WBMatrix/WBMatrix.c:247-254`. -/
def identityM32 (Mat : M32) : C M32 :=
  forUp 0 32 Mat fun i Mat => do wr Mat i (← rd idM32 i)

/-- `printM32` — `/repo/src/WBMatrix/WBMatrix.c:385-392`. -/
def printM32 (Mat : M32) : CM Unit :=
  forUp 0 32 () fun i _ => do
    printf "0x%x\n" [.u32 (← liftC (rd Mat i))]

/-- `printV32` — `/repo/src/WBMatrix/WBMatrix.c:433-436`. -/
def printV32 (Vec : V32) : CM Unit := do
  printf "0x%x\n" [.u32 Vec]

/-- `copyM32` — `/repo/src/WBMatrix/WBMatrix.c:477-484`. -/
def copyM32 (Mat1 Mat2 : M32) : C M32 :=
  forUp 0 32 Mat2 fun i Mat2 => do wr Mat2 i (← rd Mat1 i)

/-- `isequalM32` — `/repo/src/WBMatrix/WBMatrix.c:540-548`. -/
def isequalM32 (Mat1 Mat2 : M32) : C Int := do
  let r ← forRet (ρ := Int) 0 32 () fun i _ => do
    if (← rd Mat1 i) != (← rd Mat2 i) then pure (.stop 0) else pure (.next ())
  match r with
  | .stop r => pure r
  | .next _ => pure 1

/-- `isequalV32` — `/repo/src/WBMatrix/WBMatrix.c:595-599`. -/
def isequalV32 (Vec1 Vec2 : V32) : C Int :=
  if Vec1 != Vec2 then pure 0 else pure 1

/-- `readbitM32` — `/repo/src/WBMatrix/WBMatrix.c:634-638`. -/
def readbitM32 (Mat : M32) (i j : Int) : C Int := do
  let x ← rdI Mat i
  let m ← rdI idM32 j
  if x &&& m == m then pure 1 else pure 0

/-- `flipbitM32` — `/repo/src/WBMatrix/WBMatrix.c:692-695`. -/
def flipbitM32 (Mat : M32) (i j : Int) : C M32 := do
  wrI Mat i ((← rdI Mat i) ^^^ (← rdI idM32 j))

/-- `setbitM32` — `/repo/src/WBMatrix/WBMatrix.c:745-749`. -/
def setbitM32 (Mat : M32) (i j bit : Int) : C M32 := do
  if (← readbitM32 Mat i j) == bit then pure Mat else flipbitM32 Mat i j

/-- `isinvertM32` — `/repo/src/WBMatrix/WBMatrix.c:897-940`. `Mat` is a by-value copy that the function destroys. -/
def isinvertM32 (Mat : M32) : C Int := do
  let r ← forRet (ρ := Int) 0 32 Mat fun i Mat => do
    if ← hasBit Mat i idM32 i then
      let Mat ← forUp (i + 1) 32 Mat fun j Mat => do
        if ← hasBit Mat j idM32 i then xorRow Mat j i else pure Mat
      pure (.next Mat)
    else
      let (Mat, flag) ← forBrk (i + 1) 32 (Mat, true) fun j (Mat, flag) => do
        if ← hasBit Mat j idM32 i then
          let Mat ← swapRow Mat i j
          pure (.stop (Mat, false))
        else pure (.next (Mat, flag))
      if flag then pure (.stop 0)
      else
        let Mat ← forUp (i + 1) 32 Mat fun k Mat => do
          if ← hasBit Mat k idM32 i then xorRow Mat k i else pure Mat
        pure (.next Mat)
  match r with
  | .stop r => pure r
  | .next Mat => do
    if (← rd Mat 31) == (← rd idM32 31) then pure 1 else pure 0

/-- `invsM32` — `/repo/src/WBMatrix/WBMatrix.c:1431-1486`. `Mat` is a by-value copy that the function destroys. -/
def invsM32 (Mat Mat_inv : M32) : C M32 := do
  let Mat_inv ← identityM32 Mat_inv
  let s ← forUp 0 32 (Mat, Mat_inv) fun i (Mat, Mat_inv) => do
    if ← hasBit Mat i idM32 i then
      forUp (i + 1) 32 (Mat, Mat_inv) fun j (Mat, Mat_inv) => do
        if ← hasBit Mat j idM32 i then
          let Mat ← xorRow Mat j i
          let Mat_inv ← xorRow Mat_inv j i
          pure (Mat, Mat_inv)
        else pure (Mat, Mat_inv)
    else
      let s ← forBrk (i + 1) 32 (Mat, Mat_inv) fun j (Mat, Mat_inv) => do
        if ← hasBit Mat j idM32 i then
          let Mat ← swapRow Mat i j
          let Mat_inv ← swapRow Mat_inv i j
          pure (.stop (Mat, Mat_inv))
        else pure (.next (Mat, Mat_inv))
      forUp (i + 1) 32 s fun k (Mat, Mat_inv) => do
        if ← hasBit Mat k idM32 i then
          let Mat ← xorRow Mat k i
          let Mat_inv ← xorRow Mat_inv k i
          pure (Mat, Mat_inv)
        else pure (Mat, Mat_inv)
  let s ← forDown 32 0 s fun i s =>
    forDown i 0 s fun j (Mat, Mat_inv) => do
      if ← hasBit Mat j idM32 i then
        let Mat ← xorRow Mat j i
        let Mat_inv ← xorRow Mat_inv j i
        pure (Mat, Mat_inv)
      else pure (Mat, Mat_inv)
  pure s.2

/-- `xorU32` — `/repo/src/WBMatrix/WBMatrix.c:2073-2080`. -/
def xorU32 (env : Env) (n : BitVec 32) : C Int := do
  let temp := (← env.ldSub n 16 0) ^^^ (← env.ldSub n 16 1)
  if (← xorU16 env temp) != 0 then pure 1 else pure 0

/-- `HWU32` — `/repo/src/WBMatrix/WBMatrix.c:2116-2120`. -/
def HWU32 (env : Env) (n : BitVec 32) : C Int := do
  pure ((← HWU16 env (← env.ldSub n 16 0)) + (← HWU16 env (← env.ldSub n 16 1)))

/-- `printU32` — `/repo/src/WBMatrix/WBMatrix.c:2138-2141`. -/
def printU32 (n : BitVec 32) : CM Unit := do
  printf "0x%x\n" [.u32 n]

/-- `printbitM32` — `/repo/src/WBMatrix/WBMatrix.c:2209-2225`. -/
def printbitM32 (Mat : M32) : CM Unit := do
  forUp 0 32 () fun i _ => do
    let temp ← liftC (rd Mat i)
    let _ ← forUp 0 32 temp fun _j temp => do
      if temp &&& 0x80000000 != 0 then printf "%d " [.i32 1] else printf "%d " [.i32 0]
      pure (temp <<< 1)
    printf "\n" []
  printf "\n" []

/-- `VecAddVecV32` — `/repo/src/WBMatrix/WBMatrix.c:2279-2282`. -/
def VecAddVecV32 (Vec1 Vec2 _Vec : V32) : C V32 := pure (Vec1 ^^^ Vec2)

/-- `MatMulNumM32` — `/repo/src/WBMatrix/WBMatrix.c:2329-2338`. -/
def MatMulNumM32 (env : Env) (Mat : M32) (n : BitVec 32) : C (BitVec 32) :=
  forUp 0 32 0 fun i temp => do
    if (← xorU32 env ((← rd Mat i) &&& n)) != 0 then pure (temp ^^^ (← rd idM32 i))
    else pure temp

/-- `MatMulVecM32` — `/repo/src/WBMatrix/WBMatrix.c:2376-2384`. -/
def MatMulVecM32 (env : Env) (Mat : M32) (Vec : V32) (ans : V32) : C V32 := do
  let ans ← initV32 ans
  forUp 0 32 ans fun i ans => do
    if (← xorU32 env ((← rd Mat i) &&& Vec)) != 0 then pure (ans ^^^ (← rd idM32 i))
    else pure ans

/-- `affineU32` — `/repo/src/WBMatrix/WBMatrix.c:2032-2038`. -/
def affineU32 (env : Env) (aff : Aff32) (arr : BitVec 32) : C (BitVec 32) := do
  let ans_vec ← MatMulVecM32 env aff.Mat arr (env.junk 32 0)
  pure (ans_vec ^^^ aff.Vec)

/-- `MattransM32` — `/repo/src/WBMatrix/WBMatrix.c:4852-4874`. `k`, `k2`, `l` are small unsigned numbers (`l < 32`), modelled by `Nat`. -/
def MattransM32 (env : Env) (Mat Mat_trans : M32) : C M32 := do
  let mask := env.junkArr 32 5
  let mask ← wr mask 0 0x55555555
  let mask ← wr mask 1 0x33333333
  let mask ← wr mask 2 0x0f0f0f0f
  let mask ← wr mask 3 0x00ff00ff
  let mask ← wr mask 4 0x0000ffff
  let Mat ← forUp 0 5 Mat fun j Mat => do
    let k := 1 <<< j
    let k2 := k * 2
    forUp 0 16 Mat fun i Mat => do
      let l := (k2 * i) % 31
      let temp := ((← rd Mat l) &&& ~~~(← rd mask j)) ^^^ (((← rd Mat (l + k)) &&& ~~~(← rd mask j)) >>> k)
      let Mat ← wr Mat (l + k) (((← rd Mat (l + k)) &&& (← rd mask j)) ^^^ (((← rd Mat l) &&& (← rd mask j)) <<< k))
      wr Mat l temp
  copyM32 Mat Mat_trans

/-- `MatAddMatM32` — `/repo/src/WBMatrix/WBMatrix.c:5021-5028`. -/
def MatAddMatM32 (Mat1 Mat2 Mat : M32) : C M32 :=
  forUp 0 32 Mat fun i Mat => do wr Mat i ((← rd Mat1 i) ^^^ (← rd Mat2 i))

/-- `MatMulMatM32` — `/repo/src/WBMatrix/WBMatrix.c:5098-5111`. -/
def MatMulMatM32 (env : Env) (Mat1 Mat2 Mat : M32) : C M32 := do
  let Mat ← initM32 Mat
  let Mat2_trans ← MattransM32 env Mat2 (env.junkArr 32 32)
  forUp 0 32 Mat fun i Mat =>
    forUp 0 32 Mat fun j Mat => do
      if (← xorU32 env ((← rd Mat1 i) &&& (← rd Mat2_trans j))) != 0 then
        wr Mat i ((← rd Mat i) ^^^ (← rd idM32 j))
      else pure Mat

/-- `genMatpairM32` — `/repo/src/WBMatrix/WBMatrix.c:2921-3077`. `Mat` and `Mat_inv` are assumed to point to different objects. The unused local `q` is omitted. -/
def genMatpairM32 (env : Env) (Mat Mat_inv : M32) : CM (M32 × M32) := do
  reseed
  let Mat ← liftC (identityM32 Mat)
  let Mat_inv ← liftC (identityM32 Mat_inv)
  let tempMat ← randM32 (env.junkArr 32 32)
  let resultMat ← liftC (copyM32 tempMat (env.junkArr 32 32))
  let s : GenSt M32 1024 :=
    { tempMat, Mat_inv, trail := env.junkArr2 8 3 1024, times := 0, invertible := true }
  let s ← forUp 0 32 s fun i s => do
    if ← liftC (hasBit s.tempMat i idM32 i) then
      liftC <| forUp (i + 1) 32 s fun j s => do
        if ← hasBit s.tempMat j idM32 i then
          let tempMat ← xorRow s.tempMat j i
          let Mat_inv ← xorRow s.Mat_inv j i
          GenSt.record { s with tempMat, Mat_inv } 1 j i
        else pure s
    else
      let (s, flag) ← liftC <| forBrk (i + 1) 32 (s, true) fun j (s, flag) => do
        if ← hasBit s.tempMat j idM32 i then
          let tempMat ← swapRow s.tempMat i j
          let Mat_inv ← swapRow s.Mat_inv i j
          let s ← GenSt.record { s with tempMat, Mat_inv } 0 j i
          pure (.stop (s, false))
        else pure (.next (s, flag))
      if flag then
        let s := { s with invertible := false }
        if i < 31 then
          let r ← cus_random
          let s ← liftC do
            let p := i + 1 + (← umod r (BitVec.ofNat 32 (31 - i))).toNat
            let tempMat ← swapRow s.tempMat p i
            let Mat_inv ← swapRow s.Mat_inv p i
            GenSt.record { s with tempMat, Mat_inv } 0 p i
          forUp (i + 1) 32 s fun t s => do
            let r ← cus_random
            liftC do
              if (← umod r 2) != 0 then
                let tempMat ← xorRow s.tempMat t i
                let Mat_inv ← xorRow s.Mat_inv t i
                GenSt.record { s with tempMat, Mat_inv } 1 t i
              else pure s
        else pure s
      else
        liftC <| forUp (i + 1) 32 s fun k s => do
          if ← hasBit s.tempMat k idM32 i then
            let tempMat ← xorRow s.tempMat k i
            let Mat_inv ← xorRow s.Mat_inv k i
            GenSt.record { s with tempMat, Mat_inv } 1 k i
          else pure s
  liftC do
    if !s.invertible then
      let s ← forDown 32 0 s fun t s =>
        forDown t 0 s fun j s => do
          if ← hasBit s.tempMat j idM32 t then
            let tempMat ← xorRow s.tempMat j t
            let Mat_inv ← xorRow s.Mat_inv j t
            GenSt.record { s with tempMat, Mat_inv } 1 j t
          else pure s
      let Mat ← forDown s.times 0 Mat fun j Mat => do
        if (← rd2 s.trail j 0) != 0 then
          xorRow Mat (← rd2 s.trail j 1).toNat (← rd2 s.trail j 2).toNat
        else
          swapRow Mat (← rd2 s.trail j 1).toNat (← rd2 s.trail j 2).toNat
      pure (Mat, s.Mat_inv)
    else
      let s ← forDown 32 0 (s.tempMat, s.Mat_inv) fun i s =>
        forDown i 0 s fun j (tempMat, Mat_inv) => do
          if ← hasBit tempMat j idM32 i then
            let tempMat ← xorRow tempMat j i
            let Mat_inv ← xorRow Mat_inv j i
            pure (tempMat, Mat_inv)
          else pure (tempMat, Mat_inv)
      let Mat ← copyM32 resultMat Mat
      pure (Mat, s.2)

/-- `genaffinepairM32` — `/repo/src/WBMatrix/WBMatrix.c:4358-4363`. -/
def genaffinepairM32 (env : Env) (aff aff_inv : Aff32) : CM (Aff32 × Aff32) := do
  let (Mat, Mat_inv) ← genMatpairM32 env aff.Mat aff_inv.Mat
  let Vec ← randV32 aff.Vec
  let Vec_inv ← liftC (MatMulVecM32 env Mat_inv Vec aff_inv.Vec)
  pure (⟨Mat, Vec⟩, ⟨Mat_inv, Vec_inv⟩)

/-- `affinemixM32` — `/repo/src/WBMatrix/WBMatrix.c:5210-5215`. -/
def affinemixM32 (env : Env) (aff preaff_inv mixaff : Aff32) : C Aff32 := do
  let Mat ← MatMulMatM32 env aff.Mat preaff_inv.Mat mixaff.Mat
  let Vec ← MatMulVecM32 env aff.Mat preaff_inv.Vec mixaff.Vec
  pure ⟨Mat, Vec ^^^ aff.Vec⟩

end WB
