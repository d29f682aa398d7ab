import Verif.Model.M32

/-!
# 64-bit functions of `/repo/src/WBMatrix/WBMatrix.c`

Generated once by `tools/gen_small.py`; kept under version control as source.
A parameter that is an output pointer in C carries the old contents of its target and the
function returns the new contents.
-/
namespace WB

/-- `initM64` — `/repo/src/WBMatrix/WBMatrix.c:79-86`. -/
def initM64 (Mat : M64) : C M64 :=
  forUp 0 64 Mat fun i Mat => wr Mat i 0

/-- `initV64` — `/repo/src/WBMatrix/WBMatrix.c:123-126`. -/
def initV64 (_Vec : V64) : C V64 := pure 0

/-- `randM64` — `/repo/src/WBMatrix/WBMatrix.c:175-186`. The `uint32_t*` pointer `m` writes first the cell `m + 1`, then the cell `m`. -/
def randM64 (env : Env) (Mat : M64) : CM M64 := do
  reseed
  forUp 0 64 Mat fun i Mat => do
    let r ← cus_random
    let Mat ← liftC do wr Mat i (← env.stSub (← rd Mat i) 1 r)
    let r ← cus_random
    liftC do wr Mat i (← env.stSub (← rd Mat i) 0 r)

/-- `randV64` — `/repo/src/WBMatrix/WBMatrix.c:329-334`. There is no `InitRandom` in this function. -/
def randV64 (env : Env) (Vec : V64) : CM V64 := do
  let r ← cus_random
  let Vec ← liftC (env.stSub Vec 1 r)
  let r ← cus_random
  liftC (env.stSub Vec 0 r)

/-- `identityM64` — `/repo/src/WBMatrix/WBMatrix.c:255-262`. -/
def identityM64 (Mat : M64) : C M64 :=
  forUp 0 64 Mat fun i Mat => do wr Mat i (← rd idM64 i)

/-- `printM64` — `/repo/src/WBMatrix/WBMatrix.c:393-400`. -/
def printM64 (Mat : M64) : CM Unit :=
  forUp 0 64 () fun i _ => do
    printf "0x%llx\n" [.u64 (← liftC (rd Mat i))]

/-- `printV64` — `/repo/src/WBMatrix/WBMatrix.c:437-440`. -/
def printV64 (Vec : V64) : CM Unit := do
  printf "0x%llx\n" [.u64 Vec]

/-- `copyM64` — `/repo/src/WBMatrix/WBMatrix.c:485-492`. -/
def copyM64 (Mat1 Mat2 : M64) : C M64 :=
  forUp 0 64 Mat2 fun i Mat2 => do wr Mat2 i (← rd Mat1 i)

/-- `isequalM64` — `/repo/src/WBMatrix/WBMatrix.c:549-557`. -/
def isequalM64 (Mat1 Mat2 : M64) : C Int := do
  let r ← forRet (ρ := Int) 0 64 () fun i _ => do
    if (← rd Mat1 i) != (← rd Mat2 i) then pure (.stop 0) else pure (.next ())
  match r with
  | .stop r => pure r
  | .next _ => pure 1

/-- `isequalV64` — `/repo/src/WBMatrix/WBMatrix.c:600-604`. -/
def isequalV64 (Vec1 Vec2 : V64) : C Int :=
  if Vec1 != Vec2 then pure 0 else pure 1

/-- `readbitM64` — `/repo/src/WBMatrix/WBMatrix.c:639-643`. -/
def readbitM64 (Mat : M64) (i j : Int) : C Int := do
  let x ← rdI Mat i
  let m ← rdI idM64 j
  if x &&& m == m then pure 1 else pure 0

/-- `flipbitM64` — `/repo/src/WBMatrix/WBMatrix.c:696-699`. -/
def flipbitM64 (Mat : M64) (i j : Int) : C M64 := do
  wrI Mat i ((← rdI Mat i) ^^^ (← rdI idM64 j))

/-- `setbitM64` — `/repo/src/WBMatrix/WBMatrix.c:750-754`. -/
def setbitM64 (Mat : M64) (i j bit : Int) : C M64 := do
  if (← readbitM64 Mat i j) == bit then pure Mat else flipbitM64 Mat i j

/-- `isinvertM64` — `/repo/src/WBMatrix/WBMatrix.c:941-984`. `Mat` is a by-value copy that the function destroys. -/
def isinvertM64 (Mat : M64) : C Int := do
  let r ← forRet (ρ := Int) 0 64 Mat fun i Mat => do
    if ← hasBit Mat i idM64 i then
      let Mat ← forUp (i + 1) 64 Mat fun j Mat => do
        if ← hasBit Mat j idM64 i then xorRow Mat j i else pure Mat
      pure (.next Mat)
    else
      let (Mat, flag) ← forBrk (i + 1) 64 (Mat, true) fun j (Mat, flag) => do
        if ← hasBit Mat j idM64 i then
          let Mat ← swapRow Mat i j
          pure (.stop (Mat, false))
        else pure (.next (Mat, flag))
      if flag then pure (.stop 0)
      else
        let Mat ← forUp (i + 1) 64 Mat fun k Mat => do
          if ← hasBit Mat k idM64 i then xorRow Mat k i else pure Mat
        pure (.next Mat)
  match r with
  | .stop r => pure r
  | .next Mat => do
    if (← rd Mat 63) == (← rd idM64 63) then pure 1 else pure 0

/-- `invsM64` — `/repo/src/WBMatrix/WBMatrix.c:1487-1542`. `Mat` is a by-value copy that the function destroys. -/
def invsM64 (Mat Mat_inv : M64) : C M64 := do
  let Mat_inv ← identityM64 Mat_inv
  let s ← forUp 0 64 (Mat, Mat_inv) fun i (Mat, Mat_inv) => do
    if ← hasBit Mat i idM64 i then
      forUp (i + 1) 64 (Mat, Mat_inv) fun j (Mat, Mat_inv) => do
        if ← hasBit Mat j idM64 i then
          let Mat ← xorRow Mat j i
          let Mat_inv ← xorRow Mat_inv j i
          pure (Mat, Mat_inv)
        else pure (Mat, Mat_inv)
    else
      let s ← forBrk (i + 1) 64 (Mat, Mat_inv) fun j (Mat, Mat_inv) => do
        if ← hasBit Mat j idM64 i then
          let Mat ← swapRow Mat i j
          let Mat_inv ← swapRow Mat_inv i j
          pure (.stop (Mat, Mat_inv))
        else pure (.next (Mat, Mat_inv))
      forUp (i + 1) 64 s fun k (Mat, Mat_inv) => do
        if ← hasBit Mat k idM64 i then
          let Mat ← xorRow Mat k i
          let Mat_inv ← xorRow Mat_inv k i
          pure (Mat, Mat_inv)
        else pure (Mat, Mat_inv)
  let s ← forDown 64 0 s fun i s =>
    forDown i 0 s fun j (Mat, Mat_inv) => do
      if ← hasBit Mat j idM64 i then
        let Mat ← xorRow Mat j i
        let Mat_inv ← xorRow Mat_inv j i
        pure (Mat, Mat_inv)
      else pure (Mat, Mat_inv)
  pure s.2

/-- `xorU64` — `/repo/src/WBMatrix/WBMatrix.c:2081-2088`. -/
def xorU64 (env : Env) (n : BitVec 64) : C Int := do
  let temp := (← env.ldSub n 32 0) ^^^ (← env.ldSub n 32 1)
  if (← xorU32 env temp) != 0 then pure 1 else pure 0

/-- `HWU64` — `/repo/src/WBMatrix/WBMatrix.c:2121-2125`. -/
def HWU64 (env : Env) (n : BitVec 64) : C Int := do
  pure ((← HWU32 env (← env.ldSub n 32 0)) + (← HWU32 env (← env.ldSub n 32 1)))

/-- `printU64` — `/repo/src/WBMatrix/WBMatrix.c:2142-2145`. -/
def printU64 (n : BitVec 64) : CM Unit :=
  printf "0llx%x\n" [.u64 n]

/-- `printbitM64` — `/repo/src/WBMatrix/WBMatrix.c:2226-2242`. -/
def printbitM64 (Mat : M64) : CM Unit := do
  forUp 0 64 () fun i _ => do
    let temp ← liftC (rd Mat i)
    let _ ← forUp 0 64 temp fun _j temp => do
      if temp &&& 0x8000000000000000 != 0 then printf "%d " [.i32 1] else printf "%d " [.i32 0]
      pure (temp <<< 1)
    printf "\n" []
  printf "\n" []

/-- `VecAddVecV64` — `/repo/src/WBMatrix/WBMatrix.c:2283-2286`. -/
def VecAddVecV64 (Vec1 Vec2 _Vec : V64) : C V64 := pure (Vec1 ^^^ Vec2)

/-- `MatMulNumM64` — `/repo/src/WBMatrix/WBMatrix.c:2339-2348`. -/
def MatMulNumM64 (env : Env) (Mat : M64) (n : BitVec 64) : C (BitVec 64) :=
  forUp 0 64 0 fun i temp => do
    if (← xorU64 env ((← rd Mat i) &&& n)) != 0 then pure (temp ^^^ (← rd idM64 i))
    else pure temp

/-- `MatMulVecM64` — `/repo/src/WBMatrix/WBMatrix.c:2385-2393`. -/
def MatMulVecM64 (env : Env) (Mat : M64) (Vec : V64) (ans : V64) : C V64 := do
  let ans ← initV64 ans
  forUp 0 64 ans fun i ans => do
    if (← xorU64 env ((← rd Mat i) &&& Vec)) != 0 then pure (ans ^^^ (← rd idM64 i))
    else pure ans

/-- `affineU64` — `/repo/src/WBMatrix/WBMatrix.c:2039-2045`. -/
def affineU64 (env : Env) (aff : Aff64) (arr : BitVec 64) : C (BitVec 64) := do
  let ans_vec ← MatMulVecM64 env aff.Mat arr (env.junk 64 0)
  pure (ans_vec ^^^ aff.Vec)

/-- `MattransM64` — `/repo/src/WBMatrix/WBMatrix.c:4875-4898`. `k`, `k2`, `l` are small unsigned numbers (`l < 64`), modelled by `Nat`. -/
def MattransM64 (env : Env) (Mat Mat_trans : M64) : C M64 := do
  let mask := env.junkArr 64 6
  let mask ← wr mask 0 0x5555555555555555
  let mask ← wr mask 1 0x3333333333333333
  let mask ← wr mask 2 0x0f0f0f0f0f0f0f0f
  let mask ← wr mask 3 0x00ff00ff00ff00ff
  let mask ← wr mask 4 0x0000ffff0000ffff
  let mask ← wr mask 5 0x00000000ffffffff
  let Mat ← forUp 0 6 Mat fun j Mat => do
    let k := 1 <<< j
    let k2 := k * 2
    forUp 0 32 Mat fun i Mat => do
      let l := (k2 * i) % 63
      let temp := ((← rd Mat l) &&& ~~~(← rd mask j)) ^^^ (((← rd Mat (l + k)) &&& ~~~(← rd mask j)) >>> k)
      let Mat ← wr Mat (l + k) (((← rd Mat (l + k)) &&& (← rd mask j)) ^^^ (((← rd Mat l) &&& (← rd mask j)) <<< k))
      wr Mat l temp
  copyM64 Mat Mat_trans

/-- `MatAddMatM64` — `/repo/src/WBMatrix/WBMatrix.c:5029-5036`. -/
def MatAddMatM64 (Mat1 Mat2 Mat : M64) : C M64 :=
  forUp 0 64 Mat fun i Mat => do wr Mat i ((← rd Mat1 i) ^^^ (← rd Mat2 i))

/-- `MatMulMatM64` — `/repo/src/WBMatrix/WBMatrix.c:5112-5125`. -/
def MatMulMatM64 (env : Env) (Mat1 Mat2 Mat : M64) : C M64 := do
  let Mat ← initM64 Mat
  let Mat2_trans ← MattransM64 env Mat2 (env.junkArr 64 64)
  forUp 0 64 Mat fun i Mat =>
    forUp 0 64 Mat fun j Mat => do
      if (← xorU64 env ((← rd Mat1 i) &&& (← rd Mat2_trans j))) != 0 then
        wr Mat i ((← rd Mat i) ^^^ (← rd idM64 j))
      else pure Mat

/-- `genMatpairM64` — `/repo/src/WBMatrix/WBMatrix.c:3078-3234`. `Mat` and `Mat_inv` are assumed to point to different objects. The unused local `q` is omitted. -/
def genMatpairM64 (env : Env) (Mat Mat_inv : M64) : CM (M64 × M64) := do
  reseed
  let Mat ← liftC (identityM64 Mat)
  let Mat_inv ← liftC (identityM64 Mat_inv)
  let tempMat ← randM64 env (env.junkArr 64 64)
  let resultMat ← liftC (copyM64 tempMat (env.junkArr 64 64))
  let s : GenSt M64 4096 :=
    { tempMat, Mat_inv, trail := env.junkArr2 8 3 4096, times := 0, invertible := true }
  let s ← forUp 0 64 s fun i s => do
    if ← liftC (hasBit s.tempMat i idM64 i) then
      liftC <| forUp (i + 1) 64 s fun j s => do
        if ← hasBit s.tempMat j idM64 i then
          let tempMat ← xorRow s.tempMat j i
          let Mat_inv ← xorRow s.Mat_inv j i
          GenSt.record { s with tempMat, Mat_inv } 1 j i
        else pure s
    else
      let (s, flag) ← liftC <| forBrk (i + 1) 64 (s, true) fun j (s, flag) => do
        if ← hasBit s.tempMat j idM64 i then
          let tempMat ← swapRow s.tempMat i j
          let Mat_inv ← swapRow s.Mat_inv i j
          let s ← GenSt.record { s with tempMat, Mat_inv } 0 j i
          pure (.stop (s, false))
        else pure (.next (s, flag))
      if flag then
        let s := { s with invertible := false }
        if i < 63 then
          let r ← cus_random
          let s ← liftC do
            let p := i + 1 + (← umod r (BitVec.ofNat 32 (63 - i))).toNat
            let tempMat ← swapRow s.tempMat p i
            let Mat_inv ← swapRow s.Mat_inv p i
            GenSt.record { s with tempMat, Mat_inv } 0 p i
          forUp (i + 1) 64 s fun t s => do
            let r ← cus_random
            liftC do
              if (← umod r 2) != 0 then
                let tempMat ← xorRow s.tempMat t i
                let Mat_inv ← xorRow s.Mat_inv t i
                GenSt.record { s with tempMat, Mat_inv } 1 t i
              else pure s
        else pure s
      else
        liftC <| forUp (i + 1) 64 s fun k s => do
          if ← hasBit s.tempMat k idM64 i then
            let tempMat ← xorRow s.tempMat k i
            let Mat_inv ← xorRow s.Mat_inv k i
            GenSt.record { s with tempMat, Mat_inv } 1 k i
          else pure s
  liftC do
    if !s.invertible then
      let s ← forDown 64 0 s fun t s =>
        forDown t 0 s fun j s => do
          if ← hasBit s.tempMat j idM64 t then
            let tempMat ← xorRow s.tempMat j t
            let Mat_inv ← xorRow s.Mat_inv j t
            GenSt.record { s with tempMat, Mat_inv } 1 j t
          else pure s
      let Mat ← forDown s.times 0 Mat fun j Mat => do
        if (← rd2 s.trail j 0) != 0 then
          xorRow Mat (← rd2 s.trail j 1).toNat (← rd2 s.trail j 2).toNat
        else
          swapRow Mat (← rd2 s.trail j 1).toNat (← rd2 s.trail j 2).toNat
      pure (Mat, s.Mat_inv)
    else
      let s ← forDown 64 0 (s.tempMat, s.Mat_inv) fun i s =>
        forDown i 0 s fun j (tempMat, Mat_inv) => do
          if ← hasBit tempMat j idM64 i then
            let tempMat ← xorRow tempMat j i
            let Mat_inv ← xorRow Mat_inv j i
            pure (tempMat, Mat_inv)
          else pure (tempMat, Mat_inv)
      let Mat ← copyM64 resultMat Mat
      pure (Mat, s.2)

/-- `genaffinepairM64` — `/repo/src/WBMatrix/WBMatrix.c:4364-4369`. -/
def genaffinepairM64 (env : Env) (aff aff_inv : Aff64) : CM (Aff64 × Aff64) := do
  let (Mat, Mat_inv) ← genMatpairM64 env aff.Mat aff_inv.Mat
  let Vec ← randV64 env aff.Vec
  let Vec_inv ← liftC (MatMulVecM64 env Mat_inv Vec aff_inv.Vec)
  pure (⟨Mat, Vec⟩, ⟨Mat_inv, Vec_inv⟩)

/-- `affinemixM64` — `/repo/src/WBMatrix/WBMatrix.c:5216-5221`. -/
def affinemixM64 (env : Env) (aff preaff_inv mixaff : Aff64) : C Aff64 := do
  let Mat ← MatMulMatM64 env aff.Mat preaff_inv.Mat mixaff.Mat
  let Vec ← MatMulVecM64 env aff.Mat preaff_inv.Vec mixaff.Vec
  pure ⟨Mat, Vec ^^^ aff.Vec⟩

end WB
