import Verif.Model.Basic

/-!
# 8-bit functions of `/repo/src/WBMatrix/WBMatrix.c`

Generated once by `tools/gen_small.py`; kept under version control as source.
A parameter that is an output pointer in C carries the old contents of its target and the
function returns the new contents.
-/
namespace WB

/-- `initM8` — `/repo/src/WBMatrix/WBMatrix.c:55-62`. -/
def initM8 (Mat : M8) : C M8 :=
  forUp 0 8 Mat fun i Mat => wr Mat i 0

/-- `initV8` — `/repo/src/WBMatrix/WBMatrix.c:111-114`. -/
def initV8 (_Vec : V8) : C V8 := pure 0

/-- `randM8` — `/repo/src/WBMatrix/WBMatrix.c:148-156`. -/
def randM8 (Mat : M8) : CM M8 := do
  reseed
  forUp 0 8 Mat fun i Mat => do
    let r ← cus_random
    liftC (wr Mat i (r.setWidth 8))

/-- `randV8` — `/repo/src/WBMatrix/WBMatrix.c:314-318`. -/
def randV8 (_Vec : V8) : CM V8 := do
  reseed
  let r ← cus_random
  pure (r.setWidth 8)

/-- `identityM8` — `/repo/src/WBMatrix/WBMatrix.c:231-238`. -/
def identityM8 (Mat : M8) : C M8 :=
  forUp 0 8 Mat fun i Mat => do wr Mat i (← rd idM8 i)

/-- `printM8` — `/repo/src/WBMatrix/WBMatrix.c:369-376`. -/
def printM8 (Mat : M8) : CM Unit :=
  forUp 0 8 () fun i _ => do
    printf "0x%x\n" [.u32 ((← liftC (rd Mat i)).setWidth 32)]

/-- `printV8` — `/repo/src/WBMatrix/WBMatrix.c:425-428`. -/
def printV8 (Vec : V8) : CM Unit := do
  printf "0x%x\n" [.u32 (Vec.setWidth 32)]

/-- `copyM8` — `/repo/src/WBMatrix/WBMatrix.c:461-468`. -/
def copyM8 (Mat1 Mat2 : M8) : C M8 :=
  forUp 0 8 Mat2 fun i Mat2 => do wr Mat2 i (← rd Mat1 i)

/-- `isequalM8` — `/repo/src/WBMatrix/WBMatrix.c:522-530`. -/
def isequalM8 (Mat1 Mat2 : M8) : C Int := do
  let r ← forRet (ρ := Int) 0 8 () fun i _ => do
    if (← rd Mat1 i) != (← rd Mat2 i) then pure (.stop 0) else pure (.next ())
  match r with
  | .stop r => pure r
  | .next _ => pure 1

/-- `isequalV8` — `/repo/src/WBMatrix/WBMatrix.c:585-589`. -/
def isequalV8 (Vec1 Vec2 : V8) : C Int :=
  if Vec1 != Vec2 then pure 0 else pure 1

/-- `readbitM8` — `/repo/src/WBMatrix/WBMatrix.c:624-628`. -/
def readbitM8 (Mat : M8) (i j : Int) : C Int := do
  let x ← rdI Mat i
  let m ← rdI idM8 j
  if x &&& m == m then pure 1 else pure 0

/-- `flipbitM8` — `/repo/src/WBMatrix/WBMatrix.c:684-687`. -/
def flipbitM8 (Mat : M8) (i j : Int) : C M8 := do
  wrI Mat i ((← rdI Mat i) ^^^ (← rdI idM8 j))

/-- `setbitM8` — `/repo/src/WBMatrix/WBMatrix.c:735-739`. -/
def setbitM8 (Mat : M8) (i j bit : Int) : C M8 := do
  if (← readbitM8 Mat i j) == bit then pure Mat else flipbitM8 Mat i j

/-- `isinvertM8` — `/repo/src/WBMatrix/WBMatrix.c:809-852`. `Mat` is a by-value copy that the function destroys. -/
def isinvertM8 (Mat : M8) : C Int := do
  let r ← forRet (ρ := Int) 0 8 Mat fun i Mat => do
    if ← hasBit Mat i idM8 i then
      let Mat ← forUp (i + 1) 8 Mat fun j Mat => do
        if ← hasBit Mat j idM8 i then xorRow Mat j i else pure Mat
      pure (.next Mat)
    else
      let (Mat, flag) ← forBrk (i + 1) 8 (Mat, true) fun j (Mat, flag) => do
        if ← hasBit Mat j idM8 i then
          let Mat ← swapRow Mat i j
          pure (.stop (Mat, false))
        else pure (.next (Mat, flag))
      if flag then pure (.stop 0)
      else
        let Mat ← forUp (i + 1) 8 Mat fun k Mat => do
          if ← hasBit Mat k idM8 i then xorRow Mat k i else pure Mat
        pure (.next Mat)
  match r with
  | .stop r => pure r
  | .next Mat => do
    if (← rd Mat 7) == (← rd idM8 7) then pure 1 else pure 0

/-- `invsM8` — `/repo/src/WBMatrix/WBMatrix.c:1319-1374`. `Mat` is a by-value copy that the function destroys. -/
def invsM8 (Mat Mat_inv : M8) : C M8 := do
  let Mat_inv ← identityM8 Mat_inv
  let s ← forUp 0 8 (Mat, Mat_inv) fun i (Mat, Mat_inv) => do
    if ← hasBit Mat i idM8 i then
      forUp (i + 1) 8 (Mat, Mat_inv) fun j (Mat, Mat_inv) => do
        if ← hasBit Mat j idM8 i then
          let Mat ← xorRow Mat j i
          let Mat_inv ← xorRow Mat_inv j i
          pure (Mat, Mat_inv)
        else pure (Mat, Mat_inv)
    else
      let s ← forBrk (i + 1) 8 (Mat, Mat_inv) fun j (Mat, Mat_inv) => do
        if ← hasBit Mat j idM8 i then
          let Mat ← swapRow Mat i j
          let Mat_inv ← swapRow Mat_inv i j
          pure (.stop (Mat, Mat_inv))
        else pure (.next (Mat, Mat_inv))
      forUp (i + 1) 8 s fun k (Mat, Mat_inv) => do
        if ← hasBit Mat k idM8 i then
          let Mat ← xorRow Mat k i
          let Mat_inv ← xorRow Mat_inv k i
          pure (Mat, Mat_inv)
        else pure (Mat, Mat_inv)
  let s ← forDown 8 0 s fun i s =>
    forDown i 0 s fun j (Mat, Mat_inv) => do
      if ← hasBit Mat j idM8 i then
        let Mat ← xorRow Mat j i
        let Mat_inv ← xorRow Mat_inv j i
        pure (Mat, Mat_inv)
      else pure (Mat, Mat_inv)
  pure s.2

/-- `xorU8` — `/repo/src/WBMatrix/WBMatrix.c:2060-2064`. -/
def xorU8 (_env : Env) (n : BitVec 8) : C Int := do
  if (← rd xorTab n.toNat) != 0 then pure 1 else pure 0

/-- `HWU8` — `/repo/src/WBMatrix/WBMatrix.c:2107-2110`. -/
def HWU8 (_env : Env) (n : BitVec 8) : C Int := do
  rd hwTab n.toNat

/-- `printU8` — `/repo/src/WBMatrix/WBMatrix.c:2130-2133`. -/
def printU8 (n : BitVec 8) : CM Unit := do
  printf "0x%x\n" [.u32 (n.setWidth 32)]

/-- `printbitM8` — `/repo/src/WBMatrix/WBMatrix.c:2175-2191`. -/
def printbitM8 (Mat : M8) : CM Unit := do
  forUp 0 8 () fun i _ => do
    let temp ← liftC (rd Mat i)
    let _ ← forUp 0 8 temp fun _j temp => do
      if temp &&& 0x80 != 0 then printf "%d " [.i32 1] else printf "%d " [.i32 0]
      pure (temp <<< 1)
    printf "\n" []
  printf "\n" []

/-- `VecAddVecV8` — `/repo/src/WBMatrix/WBMatrix.c:2271-2274`. -/
def VecAddVecV8 (Vec1 Vec2 _Vec : V8) : C V8 := pure (Vec1 ^^^ Vec2)

/-- `MatMulNumM8` — `/repo/src/WBMatrix/WBMatrix.c:2309-2318`. -/
def MatMulNumM8 (env : Env) (Mat : M8) (n : BitVec 8) : C (BitVec 8) :=
  forUp 0 8 0 fun i temp => do
    if (← xorU8 env ((← rd Mat i) &&& n)) != 0 then pure (temp ^^^ (← rd idM8 i))
    else pure temp

/-- `MatMulVecM8` — `/repo/src/WBMatrix/WBMatrix.c:2358-2366`. -/
def MatMulVecM8 (env : Env) (Mat : M8) (Vec : V8) (ans : V8) : C V8 := do
  let ans ← initV8 ans
  forUp 0 8 ans fun i ans => do
    if (← xorU8 env ((← rd Mat i) &&& Vec)) != 0 then pure (ans ^^^ (← rd idM8 i))
    else pure ans

/-- `affineU8` — `/repo/src/WBMatrix/WBMatrix.c:2018-2024`. -/
def affineU8 (env : Env) (aff : Aff8) (arr : BitVec 8) : C (BitVec 8) := do
  let ans_vec ← MatMulVecM8 env aff.Mat arr (env.junk 8 0)
  pure (ans_vec ^^^ aff.Vec)

/-- `MattransM8` — `/repo/src/WBMatrix/WBMatrix.c:4809-4829`. `k`, `k2`, `l` are small unsigned numbers (`l < 8`), modelled by `Nat`. -/
def MattransM8 (env : Env) (Mat Mat_trans : M8) : C M8 := do
  let mask := env.junkArr 8 3
  let mask ← wr mask 0 0x55
  let mask ← wr mask 1 0x33
  let mask ← wr mask 2 0x0f
  let Mat ← forUp 0 3 Mat fun j Mat => do
    let k := 1 <<< j
    let k2 := k * 2
    forUp 0 4 Mat fun i Mat => do
      let l := (k2 * i) % 7
      let temp := ((← rd Mat l) &&& ~~~(← rd mask j)) ^^^ (((← rd Mat (l + k)) &&& ~~~(← rd mask j)) >>> k)
      let Mat ← wr Mat (l + k) (((← rd Mat (l + k)) &&& (← rd mask j)) ^^^ (((← rd Mat l) &&& (← rd mask j)) <<< k))
      wr Mat l temp
  copyM8 Mat Mat_trans

/-- `MatAddMatM8` — `/repo/src/WBMatrix/WBMatrix.c:5005-5012`. -/
def MatAddMatM8 (Mat1 Mat2 Mat : M8) : C M8 :=
  forUp 0 8 Mat fun i Mat => do wr Mat i ((← rd Mat1 i) ^^^ (← rd Mat2 i))

/-- `MatMulMatM8` — `/repo/src/WBMatrix/WBMatrix.c:5070-5083`. -/
def MatMulMatM8 (env : Env) (Mat1 Mat2 Mat : M8) : C M8 := do
  let Mat ← initM8 Mat
  let Mat2_trans ← MattransM8 env Mat2 (env.junkArr 8 8)
  forUp 0 8 Mat fun i Mat =>
    forUp 0 8 Mat fun j Mat => do
      if (← xorU8 env ((← rd Mat1 i) &&& (← rd Mat2_trans j))) != 0 then
        wr Mat i ((← rd Mat i) ^^^ (← rd idM8 j))
      else pure Mat

/-- `genMatpairM8` — `/repo/src/WBMatrix/WBMatrix.c:2607-2763`. `Mat` and `Mat_inv` are assumed to point to different objects. The unused local `q` is omitted. -/
def genMatpairM8 (env : Env) (Mat Mat_inv : M8) : CM (M8 × M8) := do
  reseed
  let Mat ← liftC (identityM8 Mat)
  let Mat_inv ← liftC (identityM8 Mat_inv)
  let tempMat ← randM8 (env.junkArr 8 8)
  let resultMat ← liftC (copyM8 tempMat (env.junkArr 8 8))
  let s : GenSt M8 64 :=
    { tempMat, Mat_inv, trail := env.junkArr2 8 3 64, times := 0, invertible := true }
  let s ← forUp 0 8 s fun i s => do
    if ← liftC (hasBit s.tempMat i idM8 i) then
      liftC <| forUp (i + 1) 8 s fun j s => do
        if ← hasBit s.tempMat j idM8 i then
          let tempMat ← xorRow s.tempMat j i
          let Mat_inv ← xorRow s.Mat_inv j i
          GenSt.record { s with tempMat, Mat_inv } 1 j i
        else pure s
    else
      let (s, flag) ← liftC <| forBrk (i + 1) 8 (s, true) fun j (s, flag) => do
        if ← hasBit s.tempMat j idM8 i then
          let tempMat ← swapRow s.tempMat i j
          let Mat_inv ← swapRow s.Mat_inv i j
          let s ← GenSt.record { s with tempMat, Mat_inv } 0 j i
          pure (.stop (s, false))
        else pure (.next (s, flag))
      if flag then
        let s := { s with invertible := false }
        if i < 7 then
          let r ← cus_random
          let s ← liftC do
            let p := i + 1 + (← umod r (BitVec.ofNat 32 (7 - i))).toNat
            let tempMat ← swapRow s.tempMat p i
            let Mat_inv ← swapRow s.Mat_inv p i
            GenSt.record { s with tempMat, Mat_inv } 0 p i
          forUp (i + 1) 8 s fun t s => do
            let r ← cus_random
            liftC do
              if (← umod r 2) != 0 then
                let tempMat ← xorRow s.tempMat t i
                let Mat_inv ← xorRow s.Mat_inv t i
                GenSt.record { s with tempMat, Mat_inv } 1 t i
              else pure s
        else pure s
      else
        liftC <| forUp (i + 1) 8 s fun k s => do
          if ← hasBit s.tempMat k idM8 i then
            let tempMat ← xorRow s.tempMat k i
            let Mat_inv ← xorRow s.Mat_inv k i
            GenSt.record { s with tempMat, Mat_inv } 1 k i
          else pure s
  liftC do
    if !s.invertible then
      let s ← forDown 8 0 s fun t s =>
        forDown t 0 s fun j s => do
          if ← hasBit s.tempMat j idM8 t then
            let tempMat ← xorRow s.tempMat j t
            let Mat_inv ← xorRow s.Mat_inv j t
            GenSt.record { s with tempMat, Mat_inv } 1 j t
          else pure s
      let Mat ← forDown s.times 0 Mat fun j Mat => do
        if (← rd2 s.trail j 0) != 0 then
          xorRow Mat (← rd2 s.trail j 1).toNat (← rd2 s.trail j 2).toNat
        else
          swapRow Mat (← rd2 s.trail j 1).toNat (← rd2 s.trail j 2).toNat
      pure (Mat, s.Mat_inv)
    else
      let s ← forDown 8 0 (s.tempMat, s.Mat_inv) fun i s =>
        forDown i 0 s fun j (tempMat, Mat_inv) => do
          if ← hasBit tempMat j idM8 i then
            let tempMat ← xorRow tempMat j i
            let Mat_inv ← xorRow Mat_inv j i
            pure (tempMat, Mat_inv)
          else pure (tempMat, Mat_inv)
      let Mat ← copyM8 resultMat Mat
      pure (Mat, s.2)

/-- `genaffinepairM8` — `/repo/src/WBMatrix/WBMatrix.c:4346-4351`. -/
def genaffinepairM8 (env : Env) (aff aff_inv : Aff8) : CM (Aff8 × Aff8) := do
  let (Mat, Mat_inv) ← genMatpairM8 env aff.Mat aff_inv.Mat
  let Vec ← randV8 aff.Vec
  let Vec_inv ← liftC (MatMulVecM8 env Mat_inv Vec aff_inv.Vec)
  pure (⟨Mat, Vec⟩, ⟨Mat_inv, Vec_inv⟩)

/-- `affinemixM8` — `/repo/src/WBMatrix/WBMatrix.c:5198-5203`. -/
def affinemixM8 (env : Env) (aff preaff_inv mixaff : Aff8) : C Aff8 := do
  let Mat ← MatMulMatM8 env aff.Mat preaff_inv.Mat mixaff.Mat
  let Vec ← MatMulVecM8 env aff.Mat preaff_inv.Vec mixaff.Vec
  pure ⟨Mat, Vec ^^^ aff.Vec⟩

end WB
