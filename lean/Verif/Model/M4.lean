import Verif.Model.Basic

/-!
# 4-bit functions of `/repo/src/WBMatrix/WBMatrix.c`

Generated once by `tools/gen_small.py`; kept under version control as source.
A parameter that is an output pointer in C carries the old contents of its target and the
function returns the new contents.
-/
namespace WB

/-- `initM4` — `/repo/src/WBMatrix/WBMatrix.c:47-54`. -/
def initM4 (Mat : M4) : C M4 :=
  forUp 0 4 Mat fun i Mat => wr Mat i 0

/-- `initV4` — `/repo/src/WBMatrix/WBMatrix.c:107-110`. -/
def initV4 (_Vec : V4) : C V4 := pure 0

/-- `randM4` — `/repo/src/WBMatrix/WBMatrix.c:139-147`. -/
def randM4 (Mat : M4) : CM M4 := do
  reseed
  forUp 0 4 Mat fun i Mat => do
    let r ← cus_random
    liftC (wr Mat i ((r &&& 0x0f).setWidth 8))

/-- `randV4` — `/repo/src/WBMatrix/WBMatrix.c:309-313`. -/
def randV4 (_Vec : V4) : CM V4 := do
  reseed
  let r ← cus_random
  pure ((r &&& 0x0f).setWidth 8)

/-- `identityM4` — `/repo/src/WBMatrix/WBMatrix.c:223-230`. -/
def identityM4 (Mat : M4) : C M4 :=
  forUp 0 4 Mat fun i Mat => do wr Mat i (← rd idM4 i)

/-- `printM4` — `/repo/src/WBMatrix/WBMatrix.c:361-368`. -/
def printM4 (Mat : M4) : CM Unit :=
  forUp 0 4 () fun i _ => do
    printf "0x%x\n" [.u32 ((← liftC (rd Mat i)).setWidth 32)]

/-- `printV4` — `/repo/src/WBMatrix/WBMatrix.c:421-424`. -/
def printV4 (Vec : V4) : CM Unit := do
  printf "0x%x\n" [.u32 (Vec.setWidth 32)]

/-- `copyM4` — `/repo/src/WBMatrix/WBMatrix.c:453-460`. -/
def copyM4 (Mat1 Mat2 : M4) : C M4 :=
  forUp 0 4 Mat2 fun i Mat2 => do wr Mat2 i (← rd Mat1 i)

/-- `isequalM4` — `/repo/src/WBMatrix/WBMatrix.c:513-521`. -/
def isequalM4 (Mat1 Mat2 : M4) : C Int := do
  let r ← forRet (ρ := Int) 0 4 () fun i _ => do
    if (← rd Mat1 i) != (← rd Mat2 i) then pure (.stop 0) else pure (.next ())
  match r with
  | .stop r => pure r
  | .next _ => pure 1

/-- `isequalV4` — `/repo/src/WBMatrix/WBMatrix.c:580-584`. -/
def isequalV4 (Vec1 Vec2 : V4) : C Int :=
  if Vec1 != Vec2 then pure 0 else pure 1

/-- `readbitM4` — `/repo/src/WBMatrix/WBMatrix.c:619-623`. -/
def readbitM4 (Mat : M4) (i j : Int) : C Int := do
  let x ← rdI Mat i
  let m ← rdI idM4 j
  if x &&& m == m then pure 1 else pure 0

/-- `flipbitM4` — `/repo/src/WBMatrix/WBMatrix.c:680-683`. -/
def flipbitM4 (Mat : M4) (i j : Int) : C M4 := do
  wrI Mat i ((← rdI Mat i) ^^^ (← rdI idM4 j))

/-- `setbitM4` — `/repo/src/WBMatrix/WBMatrix.c:730-734`. -/
def setbitM4 (Mat : M4) (i j bit : Int) : C M4 := do
  if (← readbitM4 Mat i j) == bit then pure Mat else flipbitM4 Mat i j

/-- `isinvertM4` — `/repo/src/WBMatrix/WBMatrix.c:765-808`. `Mat` is a by-value copy that the function destroys. -/
def isinvertM4 (Mat : M4) : C Int := do
  let r ← forRet (ρ := Int) 0 4 Mat fun i Mat => do
    if ← hasBit Mat i idM4 i then
      let Mat ← forUp (i + 1) 4 Mat fun j Mat => do
        if ← hasBit Mat j idM4 i then xorRow Mat j i else pure Mat
      pure (.next Mat)
    else
      let (Mat, flag) ← forBrk (i + 1) 4 (Mat, true) fun j (Mat, flag) => do
        if ← hasBit Mat j idM4 i then
          let Mat ← swapRow Mat i j
          pure (.stop (Mat, false))
        else pure (.next (Mat, flag))
      if flag then pure (.stop 0)
      else
        let Mat ← forUp (i + 1) 4 Mat fun k Mat => do
          if ← hasBit Mat k idM4 i then xorRow Mat k i else pure Mat
        pure (.next Mat)
  match r with
  | .stop r => pure r
  | .next Mat => do
    if (← rd Mat 3) == (← rd idM4 3) then pure 1 else pure 0

/-- `invsM4` — `/repo/src/WBMatrix/WBMatrix.c:1263-1318`. `Mat` is a by-value copy that the function destroys. -/
def invsM4 (Mat Mat_inv : M4) : C M4 := do
  let Mat_inv ← identityM4 Mat_inv
  let s ← forUp 0 4 (Mat, Mat_inv) fun i (Mat, Mat_inv) => do
    if ← hasBit Mat i idM4 i then
      forUp (i + 1) 4 (Mat, Mat_inv) fun j (Mat, Mat_inv) => do
        if ← hasBit Mat j idM4 i then
          let Mat ← xorRow Mat j i
          let Mat_inv ← xorRow Mat_inv j i
          pure (Mat, Mat_inv)
        else pure (Mat, Mat_inv)
    else
      let s ← forBrk (i + 1) 4 (Mat, Mat_inv) fun j (Mat, Mat_inv) => do
        if ← hasBit Mat j idM4 i then
          let Mat ← swapRow Mat i j
          let Mat_inv ← swapRow Mat_inv i j
          pure (.stop (Mat, Mat_inv))
        else pure (.next (Mat, Mat_inv))
      forUp (i + 1) 4 s fun k (Mat, Mat_inv) => do
        if ← hasBit Mat k idM4 i then
          let Mat ← xorRow Mat k i
          let Mat_inv ← xorRow Mat_inv k i
          pure (Mat, Mat_inv)
        else pure (Mat, Mat_inv)
  let s ← forDown 4 0 s fun i s =>
    forDown i 0 s fun j (Mat, Mat_inv) => do
      if ← hasBit Mat j idM4 i then
        let Mat ← xorRow Mat j i
        let Mat_inv ← xorRow Mat_inv j i
        pure (Mat, Mat_inv)
      else pure (Mat, Mat_inv)
  pure s.2

/-- `xorU4` — `/repo/src/WBMatrix/WBMatrix.c:2055-2059`. -/
def xorU4 (_env : Env) (n : BitVec 8) : C Int := do
  if (← rd xorTab n.toNat) != 0 then pure 1 else pure 0

/-- `HWU4` — `/repo/src/WBMatrix/WBMatrix.c:2103-2106`. -/
def HWU4 (_env : Env) (n : BitVec 8) : C Int := do
  rd hwTab n.toNat

/-- `printbitM4` — `/repo/src/WBMatrix/WBMatrix.c:2158-2174`. -/
def printbitM4 (Mat : M4) : CM Unit := do
  forUp 0 4 () fun i _ => do
    let temp ← liftC (rd Mat i)
    let _ ← forUp 0 4 temp fun _j temp => do
      if temp &&& 0x08 != 0 then printf "%d " [.i32 1] else printf "%d " [.i32 0]
      pure (temp <<< 1)
    printf "\n" []
  printf "\n" []

/-- `VecAddVecV4` — `/repo/src/WBMatrix/WBMatrix.c:2267-2270`. -/
def VecAddVecV4 (Vec1 Vec2 _Vec : V4) : C V4 := pure (Vec1 ^^^ Vec2)

/-- `MatMulNumM4` — `/repo/src/WBMatrix/WBMatrix.c:2299-2308`. -/
def MatMulNumM4 (env : Env) (Mat : M4) (n : BitVec 8) : C (BitVec 8) :=
  forUp 0 4 0 fun i temp => do
    if (← xorU4 env ((← rd Mat i) &&& n &&& 0x0f)) != 0 then pure (temp ^^^ (← rd idM4 i))
    else pure temp

/-- `MatMulVecM4` — `/repo/src/WBMatrix/WBMatrix.c:2349-2357`. -/
def MatMulVecM4 (env : Env) (Mat : M4) (Vec : V4) (ans : V4) : C V4 := do
  let ans ← initV4 ans
  forUp 0 4 ans fun i ans => do
    if (← xorU4 env ((← rd Mat i) &&& Vec &&& 0x0f)) != 0 then pure (ans ^^^ (← rd idM4 i))
    else pure ans

/-- `affineU4` — `/repo/src/WBMatrix/WBMatrix.c:2011-2017`. -/
def affineU4 (env : Env) (aff : Aff4) (arr : BitVec 8) : C (BitVec 8) := do
  let ans_vec ← MatMulVecM4 env aff.Mat arr (env.junk 8 0)
  pure (ans_vec ^^^ aff.Vec)

/-- `MattransM4` — `/repo/src/WBMatrix/WBMatrix.c:4789-4808`. `k`, `k2`, `l` are small unsigned numbers (`l < 4`), modelled by `Nat`. -/
def MattransM4 (env : Env) (Mat Mat_trans : M4) : C M4 := do
  let mask := env.junkArr 8 2
  let mask ← wr mask 0 0x5
  let mask ← wr mask 1 0x3
  let Mat ← forUp 0 2 Mat fun j Mat => do
    let k := 1 <<< j
    let k2 := k * 2
    forUp 0 2 Mat fun i Mat => do
      let l := (k2 * i) % 3
      let temp := (((← rd Mat l) &&& ~~~(← rd mask j)) ^^^ (((← rd Mat (l + k)) &&& ~~~(← rd mask j)) >>> k)) &&& 0x0f
      let Mat ← wr Mat (l + k) ((((← rd Mat (l + k)) &&& (← rd mask j)) ^^^ (((← rd Mat l) &&& (← rd mask j)) <<< k)) &&& 0x0f)
      wr Mat l temp
  copyM4 Mat Mat_trans

/-- `MatAddMatM4` — `/repo/src/WBMatrix/WBMatrix.c:4997-5004`. -/
def MatAddMatM4 (Mat1 Mat2 Mat : M4) : C M4 :=
  forUp 0 4 Mat fun i Mat => do wr Mat i ((← rd Mat1 i) ^^^ (← rd Mat2 i))

/-- `MatMulMatM4` — `/repo/src/WBMatrix/WBMatrix.c:5056-5069`. -/
def MatMulMatM4 (env : Env) (Mat1 Mat2 Mat : M4) : C M4 := do
  let Mat ← initM4 Mat
  let Mat2_trans ← MattransM4 env Mat2 (env.junkArr 8 4)
  forUp 0 4 Mat fun i Mat =>
    forUp 0 4 Mat fun j Mat => do
      if (← xorU4 env ((← rd Mat1 i) &&& (← rd Mat2_trans j) &&& 0x0f)) != 0 then
        wr Mat i ((← rd Mat i) ^^^ (← rd idM4 j))
      else pure Mat

/-- `genMatpairM4` — `/repo/src/WBMatrix/WBMatrix.c:2450-2606`. `Mat` and `Mat_inv` are assumed to point to different objects. The unused local `q` is omitted. -/
def genMatpairM4 (env : Env) (Mat Mat_inv : M4) : CM (M4 × M4) := do
  reseed
  let Mat ← liftC (identityM4 Mat)
  let Mat_inv ← liftC (identityM4 Mat_inv)
  let tempMat ← randM4 (env.junkArr 8 4)
  let resultMat ← liftC (copyM4 tempMat (env.junkArr 8 4))
  let s : GenSt M4 16 :=
    { tempMat, Mat_inv, trail := env.junkArr2 8 3 16, times := 0, invertible := true }
  let s ← forUp 0 4 s fun i s => do
    if ← liftC (hasBit s.tempMat i idM4 i) then
      liftC <| forUp (i + 1) 4 s fun j s => do
        if ← hasBit s.tempMat j idM4 i then
          let tempMat ← xorRow s.tempMat j i
          let Mat_inv ← xorRow s.Mat_inv j i
          GenSt.record { s with tempMat, Mat_inv } 1 j i
        else pure s
    else
      let (s, flag) ← liftC <| forBrk (i + 1) 4 (s, true) fun j (s, flag) => do
        if ← hasBit s.tempMat j idM4 i then
          let tempMat ← swapRow s.tempMat i j
          let Mat_inv ← swapRow s.Mat_inv i j
          let s ← GenSt.record { s with tempMat, Mat_inv } 0 j i
          pure (.stop (s, false))
        else pure (.next (s, flag))
      if flag then
        let s := { s with invertible := false }
        if i < 3 then
          let r ← cus_random
          let s ← liftC do
            let p := i + 1 + (← umod r (BitVec.ofNat 32 (3 - i))).toNat
            let tempMat ← swapRow s.tempMat p i
            let Mat_inv ← swapRow s.Mat_inv p i
            GenSt.record { s with tempMat, Mat_inv } 0 p i
          forUp (i + 1) 4 s fun t s => do
            let r ← cus_random
            liftC do
              if (← umod r 2) != 0 then
                let tempMat ← xorRow s.tempMat t i
                let Mat_inv ← xorRow s.Mat_inv t i
                GenSt.record { s with tempMat, Mat_inv } 1 t i
              else pure s
        else pure s
      else
        liftC <| forUp (i + 1) 4 s fun k s => do
          if ← hasBit s.tempMat k idM4 i then
            let tempMat ← xorRow s.tempMat k i
            let Mat_inv ← xorRow s.Mat_inv k i
            GenSt.record { s with tempMat, Mat_inv } 1 k i
          else pure s
  liftC do
    if !s.invertible then
      let s ← forDown 4 0 s fun t s =>
        forDown t 0 s fun j s => do
          if ← hasBit s.tempMat j idM4 t then
            let tempMat ← xorRow s.tempMat j t
            let Mat_inv ← xorRow s.Mat_inv j t
            GenSt.record { s with tempMat, Mat_inv } 1 j t
          else pure s
      let Mat ← forDown s.times 0 Mat fun j Mat => do
        if (← rd2 s.trail j 0) != 0 then
          xorRow Mat (← rd2 s.trail j 1).toNat (← rd2 s.trail j 2).toNat
        else
          swapRow Mat (← rd2 s.trail j 1).toNat (← rd2 s.trail j 2).toNat
      pure (Mat, s.Mat_inv)
    else
      let s ← forDown 4 0 (s.tempMat, s.Mat_inv) fun i s =>
        forDown i 0 s fun j (tempMat, Mat_inv) => do
          if ← hasBit tempMat j idM4 i then
            let tempMat ← xorRow tempMat j i
            let Mat_inv ← xorRow Mat_inv j i
            pure (tempMat, Mat_inv)
          else pure (tempMat, Mat_inv)
      let Mat ← copyM4 resultMat Mat
      pure (Mat, s.2)

/-- `genaffinepairM4` — `/repo/src/WBMatrix/WBMatrix.c:4340-4345`. -/
def genaffinepairM4 (env : Env) (aff aff_inv : Aff4) : CM (Aff4 × Aff4) := do
  let (Mat, Mat_inv) ← genMatpairM4 env aff.Mat aff_inv.Mat
  let Vec ← randV4 aff.Vec
  let Vec_inv ← liftC (MatMulVecM4 env Mat_inv Vec aff_inv.Vec)
  pure (⟨Mat, Vec⟩, ⟨Mat_inv, Vec_inv⟩)

/-- `affinemixM4` — `/repo/src/WBMatrix/WBMatrix.c:5192-5197`. -/
def affinemixM4 (env : Env) (aff preaff_inv mixaff : Aff4) : C Aff4 := do
  let Mat ← MatMulMatM4 env aff.Mat preaff_inv.Mat mixaff.Mat
  let Vec ← MatMulVecM4 env aff.Mat preaff_inv.Vec mixaff.Vec
  pure ⟨Mat, Vec ^^^ aff.Vec⟩

end WB
