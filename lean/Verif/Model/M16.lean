import Verif.Model.M8

/-!
# 16-bit functions of `/repo/src/WBMatrix/WBMatrix.c`

Generated once by `tools/gen_small.py`; kept under version control as source.
A parameter that is an output pointer in C carries the old contents of its target and the
function returns the new contents.
-/
namespace WB

/-- `initM16` — `/repo/src/WBMatrix/WBMatrix.c:63-70`. -/
def initM16 (Mat : M16) : C M16 :=
  forUp 0 16 Mat fun i Mat => wr Mat i 0

/-- `initV16` — `/repo/src/WBMatrix/WBMatrix.c:115-118`. -/
def initV16 (_Vec : V16) : C V16 := pure 0

/-- `randM16` — `/repo/src/WBMatrix/WBMatrix.c:157-165`. -/
def randM16 (Mat : M16) : CM M16 := do
  reseed
  forUp 0 16 Mat fun i Mat => do
    let r ← cus_random
    liftC (wr Mat i (r.setWidth 16))

/-- `randV16` — `/repo/src/WBMatrix/WBMatrix.c:319-323`. -/
def randV16 (_Vec : V16) : CM V16 := do
  reseed
  let r ← cus_random
  pure (r.setWidth 16)

/-- `identityM16` — `/repo/src/WBMatrix/WBMatrix.c:239-246`. -/
def identityM16 (Mat : M16) : C M16 :=
  forUp 0 16 Mat fun i Mat => do wr Mat i (← rd idM16 i)

/-- `printM16` — `/repo/src/WBMatrix/WBMatrix.c:377-384`. -/
def printM16 (Mat : M16) : CM Unit :=
  forUp 0 16 () fun i _ => do
    printf "0x%x\n" [.u32 ((← liftC (rd Mat i)).setWidth 32)]

/-- `printV16` — `/repo/src/WBMatrix/WBMatrix.c:429-432`. -/
def printV16 (Vec : V16) : CM Unit := do
  printf "0x%x\n" [.u32 (Vec.setWidth 32)]

/-- `copyM16` — `/repo/src/WBMatrix/WBMatrix.c:469-476`. -/
def copyM16 (Mat1 Mat2 : M16) : C M16 :=
  forUp 0 16 Mat2 fun i Mat2 => do wr Mat2 i (← rd Mat1 i)

/-- `isequalM16` — `/repo/src/WBMatrix/WBMatrix.c:531-539`. -/
def isequalM16 (Mat1 Mat2 : M16) : C Int := do
  let r ← forRet (ρ := Int) 0 16 () fun i _ => do
    if (← rd Mat1 i) != (← rd Mat2 i) then pure (.stop 0) else pure (.next ())
  match r with
  | .stop r => pure r
  | .next _ => pure 1

/-- `isequalV16` — `/repo/src/WBMatrix/WBMatrix.c:590-594`. -/
def isequalV16 (Vec1 Vec2 : V16) : C Int :=
  if Vec1 != Vec2 then pure 0 else pure 1

/-- `readbitM16` — `/repo/src/WBMatrix/WBMatrix.c:629-633`. -/
def readbitM16 (Mat : M16) (i j : Int) : C Int := do
  let x ← rdI Mat i
  let m ← rdI idM16 j
  if x &&& m == m then pure 1 else pure 0

/-- `flipbitM16` — `/repo/src/WBMatrix/WBMatrix.c:688-691`. -/
def flipbitM16 (Mat : M16) (i j : Int) : C M16 := do
  wrI Mat i ((← rdI Mat i) ^^^ (← rdI idM16 j))

/-- `setbitM16` — `/repo/src/WBMatrix/WBMatrix.c:740-744`. -/
def setbitM16 (Mat : M16) (i j bit : Int) : C M16 := do
  if (← readbitM16 Mat i j) == bit then pure Mat else flipbitM16 Mat i j

/-- `isinvertM16` — `/repo/src/WBMatrix/WBMatrix.c:853-896`. `Mat` is a by-value copy that the function destroys. -/
def isinvertM16 (Mat : M16) : C Int := do
  let r ← forRet (ρ := Int) 0 16 Mat fun i Mat => do
    if ← hasBit Mat i idM16 i then
      let Mat ← forUp (i + 1) 16 Mat fun j Mat => do
        if ← hasBit Mat j idM16 i then xorRow Mat j i else pure Mat
      pure (.next Mat)
    else
      let (Mat, flag) ← forBrk (i + 1) 16 (Mat, true) fun j (Mat, flag) => do
        if ← hasBit Mat j idM16 i then
          let Mat ← swapRow Mat i j
          pure (.stop (Mat, false))
        else pure (.next (Mat, flag))
      if flag then pure (.stop 0)
      else
        let Mat ← forUp (i + 1) 16 Mat fun k Mat => do
          if ← hasBit Mat k idM16 i then xorRow Mat k i else pure Mat
        pure (.next Mat)
  match r with
  | .stop r => pure r
  | .next Mat => do
    if (← rd Mat 15) == (← rd idM16 15) then pure 1 else pure 0

/-- `invsM16` — `/repo/src/WBMatrix/WBMatrix.c:1375-1430`. `Mat` is a by-value copy that the function destroys. -/
def invsM16 (Mat Mat_inv : M16) : C M16 := do
  let Mat_inv ← identityM16 Mat_inv
  let s ← forUp 0 16 (Mat, Mat_inv) fun i (Mat, Mat_inv) => do
    if ← hasBit Mat i idM16 i then
      forUp (i + 1) 16 (Mat, Mat_inv) fun j (Mat, Mat_inv) => do
        if ← hasBit Mat j idM16 i then
          let Mat ← xorRow Mat j i
          let Mat_inv ← xorRow Mat_inv j i
          pure (Mat, Mat_inv)
        else pure (Mat, Mat_inv)
    else
      let s ← forBrk (i + 1) 16 (Mat, Mat_inv) fun j (Mat, Mat_inv) => do
        if ← hasBit Mat j idM16 i then
          let Mat ← swapRow Mat i j
          let Mat_inv ← swapRow Mat_inv i j
          pure (.stop (Mat, Mat_inv))
        else pure (.next (Mat, Mat_inv))
      forUp (i + 1) 16 s fun k (Mat, Mat_inv) => do
        if ← hasBit Mat k idM16 i then
          let Mat ← xorRow Mat k i
          let Mat_inv ← xorRow Mat_inv k i
          pure (Mat, Mat_inv)
        else pure (Mat, Mat_inv)
  let s ← forDown 16 0 s fun i s =>
    forDown i 0 s fun j (Mat, Mat_inv) => do
      if ← hasBit Mat j idM16 i then
        let Mat ← xorRow Mat j i
        let Mat_inv ← xorRow Mat_inv j i
        pure (Mat, Mat_inv)
      else pure (Mat, Mat_inv)
  pure s.2

/-- `xorU16` — `/repo/src/WBMatrix/WBMatrix.c:2065-2072`. -/
def xorU16 (env : Env) (n : BitVec 16) : C Int := do
  let temp := (← env.ldSub n 8 0) ^^^ (← env.ldSub n 8 1)
  if (← xorU8 env temp) != 0 then pure 1 else pure 0

/-- `HWU16` — `/repo/src/WBMatrix/WBMatrix.c:2111-2115`. -/
def HWU16 (env : Env) (n : BitVec 16) : C Int := do
  pure ((← HWU8 env (← env.ldSub n 8 0)) + (← HWU8 env (← env.ldSub n 8 1)))

/-- `printU16` — `/repo/src/WBMatrix/WBMatrix.c:2134-2137`. -/
def printU16 (n : BitVec 16) : CM Unit := do
  printf "0x%x\n" [.u32 (n.setWidth 32)]

/-- `printbitM16` — `/repo/src/WBMatrix/WBMatrix.c:2192-2208`. -/
def printbitM16 (Mat : M16) : CM Unit := do
  forUp 0 16 () fun i _ => do
    let temp ← liftC (rd Mat i)
    let _ ← forUp 0 16 temp fun _j temp => do
      if temp &&& 0x8000 != 0 then printf "%d " [.i32 1] else printf "%d " [.i32 0]
      pure (temp <<< 1)
    printf "\n" []
  printf "\n" []

/-- `VecAddVecV16` — `/repo/src/WBMatrix/WBMatrix.c:2275-2278`. -/
def VecAddVecV16 (Vec1 Vec2 _Vec : V16) : C V16 := pure (Vec1 ^^^ Vec2)

/-- `MatMulNumM16` — `/repo/src/WBMatrix/WBMatrix.c:2319-2328`. -/
def MatMulNumM16 (env : Env) (Mat : M16) (n : BitVec 16) : C (BitVec 16) :=
  forUp 0 16 0 fun i temp => do
    if (← xorU16 env ((← rd Mat i) &&& n)) != 0 then pure (temp ^^^ (← rd idM16 i))
    else pure temp

/-- `MatMulVecM16` — `/repo/src/WBMatrix/WBMatrix.c:2367-2375`. -/
def MatMulVecM16 (env : Env) (Mat : M16) (Vec : V16) (ans : V16) : C V16 := do
  let ans ← initV16 ans
  forUp 0 16 ans fun i ans => do
    if (← xorU16 env ((← rd Mat i) &&& Vec)) != 0 then pure (ans ^^^ (← rd idM16 i))
    else pure ans

/-- `affineU16` — `/repo/src/WBMatrix/WBMatrix.c:2025-2031`. -/
def affineU16 (env : Env) (aff : Aff16) (arr : BitVec 16) : C (BitVec 16) := do
  let ans_vec ← MatMulVecM16 env aff.Mat arr (env.junk 16 0)
  pure (ans_vec ^^^ aff.Vec)

/-- `MattransM16` — `/repo/src/WBMatrix/WBMatrix.c:4830-4851`. `k`, `k2`, `l` are small unsigned numbers (`l < 16`), modelled by `Nat`. -/
def MattransM16 (env : Env) (Mat Mat_trans : M16) : C M16 := do
  let mask := env.junkArr 16 4
  let mask ← wr mask 0 0x5555
  let mask ← wr mask 1 0x3333
  let mask ← wr mask 2 0x0f0f
  let mask ← wr mask 3 0x00ff
  let Mat ← forUp 0 4 Mat fun j Mat => do
    let k := 1 <<< j
    let k2 := k * 2
    forUp 0 8 Mat fun i Mat => do
      let l := (k2 * i) % 15
      let temp := ((← rd Mat l) &&& ~~~(← rd mask j)) ^^^ (((← rd Mat (l + k)) &&& ~~~(← rd mask j)) >>> k)
      let Mat ← wr Mat (l + k) (((← rd Mat (l + k)) &&& (← rd mask j)) ^^^ (((← rd Mat l) &&& (← rd mask j)) <<< k))
      wr Mat l temp
  copyM16 Mat Mat_trans

/-- `MatAddMatM16` — `/repo/src/WBMatrix/WBMatrix.c:5013-5020`. -/
def MatAddMatM16 (Mat1 Mat2 Mat : M16) : C M16 :=
  forUp 0 16 Mat fun i Mat => do wr Mat i ((← rd Mat1 i) ^^^ (← rd Mat2 i))

/-- `MatMulMatM16` — `/repo/src/WBMatrix/WBMatrix.c:5084-5097`. -/
def MatMulMatM16 (env : Env) (Mat1 Mat2 Mat : M16) : C M16 := do
  let Mat ← initM16 Mat
  let Mat2_trans ← MattransM16 env Mat2 (env.junkArr 16 16)
  forUp 0 16 Mat fun i Mat =>
    forUp 0 16 Mat fun j Mat => do
      if (← xorU16 env ((← rd Mat1 i) &&& (← rd Mat2_trans j))) != 0 then
        wr Mat i ((← rd Mat i) ^^^ (← rd idM16 j))
      else pure Mat

/-- `genMatpairM16` — `/repo/src/WBMatrix/WBMatrix.c:2764-2920`. `Mat` and `Mat_inv` are assumed to point to different objects. The unused local `q` is omitted. -/
def genMatpairM16 (env : Env) (Mat Mat_inv : M16) : CM (M16 × M16) := do
  reseed
  let Mat ← liftC (identityM16 Mat)
  let Mat_inv ← liftC (identityM16 Mat_inv)
  let tempMat ← randM16 (env.junkArr 16 16)
  let resultMat ← liftC (copyM16 tempMat (env.junkArr 16 16))
  let s : GenSt M16 256 :=
    { tempMat, Mat_inv, trail := env.junkArr2 8 3 256, times := 0, invertible := true }
  let s ← forUp 0 16 s fun i s => do
    if ← liftC (hasBit s.tempMat i idM16 i) then
      liftC <| forUp (i + 1) 16 s fun j s => do
        if ← hasBit s.tempMat j idM16 i then
          let tempMat ← xorRow s.tempMat j i
          let Mat_inv ← xorRow s.Mat_inv j i
          GenSt.record { s with tempMat, Mat_inv } 1 j i
        else pure s
    else
      let (s, flag) ← liftC <| forBrk (i + 1) 16 (s, true) fun j (s, flag) => do
        if ← hasBit s.tempMat j idM16 i then
          let tempMat ← swapRow s.tempMat i j
          let Mat_inv ← swapRow s.Mat_inv i j
          let s ← GenSt.record { s with tempMat, Mat_inv } 0 j i
          pure (.stop (s, false))
        else pure (.next (s, flag))
      if flag then
        let s := { s with invertible := false }
        if i < 15 then
          let r ← cus_random
          let s ← liftC do
            let p := i + 1 + (← umod r (BitVec.ofNat 32 (15 - i))).toNat
            let tempMat ← swapRow s.tempMat p i
            let Mat_inv ← swapRow s.Mat_inv p i
            GenSt.record { s with tempMat, Mat_inv } 0 p i
          forUp (i + 1) 16 s fun t s => do
            let r ← cus_random
            liftC do
              if (← umod r 2) != 0 then
                let tempMat ← xorRow s.tempMat t i
                let Mat_inv ← xorRow s.Mat_inv t i
                GenSt.record { s with tempMat, Mat_inv } 1 t i
              else pure s
        else pure s
      else
        liftC <| forUp (i + 1) 16 s fun k s => do
          if ← hasBit s.tempMat k idM16 i then
            let tempMat ← xorRow s.tempMat k i
            let Mat_inv ← xorRow s.Mat_inv k i
            GenSt.record { s with tempMat, Mat_inv } 1 k i
          else pure s
  liftC do
    if !s.invertible then
      let s ← forDown 16 0 s fun t s =>
        forDown t 0 s fun j s => do
          if ← hasBit s.tempMat j idM16 t then
            let tempMat ← xorRow s.tempMat j t
            let Mat_inv ← xorRow s.Mat_inv j t
            GenSt.record { s with tempMat, Mat_inv } 1 j t
          else pure s
      let Mat ← forDown s.times 0 Mat fun j Mat => do
        if (← rd2 s.trail j 0) != 0 then
          xorRow Mat (← rd2 s.trail j 1).toNat (← rd2 s.trail j 2).toNat
        else
          swapRow Mat (← rd2 s.trail j 1).toNat (← rd2 s.trail j 2).toNat
      pure (Mat, s.Mat_inv)
    else
      let s ← forDown 16 0 (s.tempMat, s.Mat_inv) fun i s =>
        forDown i 0 s fun j (tempMat, Mat_inv) => do
          if ← hasBit tempMat j idM16 i then
            let tempMat ← xorRow tempMat j i
            let Mat_inv ← xorRow Mat_inv j i
            pure (tempMat, Mat_inv)
          else pure (tempMat, Mat_inv)
      let Mat ← copyM16 resultMat Mat
      pure (Mat, s.2)

/-- `genaffinepairM16` — `/repo/src/WBMatrix/WBMatrix.c:4352-4357`. -/
def genaffinepairM16 (env : Env) (aff aff_inv : Aff16) : CM (Aff16 × Aff16) := do
  let (Mat, Mat_inv) ← genMatpairM16 env aff.Mat aff_inv.Mat
  let Vec ← randV16 aff.Vec
  let Vec_inv ← liftC (MatMulVecM16 env Mat_inv Vec aff_inv.Vec)
  pure (⟨Mat, Vec⟩, ⟨Mat_inv, Vec_inv⟩)

/-- `affinemixM16` — `/repo/src/WBMatrix/WBMatrix.c:5204-5209`. -/
def affinemixM16 (env : Env) (aff preaff_inv mixaff : Aff16) : C Aff16 := do
  let Mat ← MatMulMatM16 env aff.Mat preaff_inv.Mat mixaff.Mat
  let Vec ← MatMulVecM16 env aff.Mat preaff_inv.Vec mixaff.Vec
  pure ⟨Mat, Vec ^^^ aff.Vec⟩

end WB
