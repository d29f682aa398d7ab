import Verif.Model.M64

/-!
# 128-bit functions of `/repo/src/WBMatrix/WBMatrix.c`

Generated once by `tools/gen_big.py`; kept under version control as source.
A row is an array of 2 64-bit words; the elimination functions are split into 2 phases, one
per word, that skip the words to the left (which are zero at that point).
A parameter that is an output pointer in C carries the old contents of its target and the
function returns the new contents.
-/
namespace WB

/-- `initM128` — `/repo/src/WBMatrix/WBMatrix.c:87-95`. -/
def initM128 (Mat : M128) : C M128 :=
  forUp 0 128 Mat fun i Mat => do
    let Mat ← wr2 Mat i 0 0
    let Mat ← wr2 Mat i 1 0
    pure Mat

/-- `initV128` — `/repo/src/WBMatrix/WBMatrix.c:127-131`. -/
def initV128 (Vec : V128) : C V128 := do
  let Vec ← wr Vec 0 0
  let Vec ← wr Vec 1 0
  pure Vec

/-- `randM128` — `/repo/src/WBMatrix/WBMatrix.c:187-201`. The `uint32_t*` pointer `m` writes, for each word, first the cell `m + 1`, then `m`. -/
def randM128 (env : Env) (Mat : M128) : CM M128 := do
  reseed
  forUp 0 128 Mat fun i Mat => do
    let r ← cus_random
    let Mat ← liftC do wr2 Mat i 0 (← env.stSub (← rd2 Mat i 0) 1 r)
    let r ← cus_random
    let Mat ← liftC do wr2 Mat i 0 (← env.stSub (← rd2 Mat i 0) 0 r)
    let r ← cus_random
    let Mat ← liftC do wr2 Mat i 1 (← env.stSub (← rd2 Mat i 1) 1 r)
    let r ← cus_random
    let Mat ← liftC do wr2 Mat i 1 (← env.stSub (← rd2 Mat i 1) 0 r)
    pure Mat

/-- `randV128` — `/repo/src/WBMatrix/WBMatrix.c:335-344`. -/
def randV128 (env : Env) (Vec : V128) : CM V128 := do
  reseed
  let r ← cus_random
  let Vec ← liftC do wr Vec 0 (← env.stSub (← rd Vec 0) 1 r)
  let r ← cus_random
  let Vec ← liftC do wr Vec 0 (← env.stSub (← rd Vec 0) 0 r)
  let r ← cus_random
  let Vec ← liftC do wr Vec 1 (← env.stSub (← rd Vec 1) 1 r)
  let r ← cus_random
  let Vec ← liftC do wr Vec 1 (← env.stSub (← rd Vec 1) 0 r)
  pure Vec

/-- `identityM128` — `/repo/src/WBMatrix/WBMatrix.c:263-276`. -/
def identityM128 (Mat : M128) : C M128 := do
  let Mat ← forUp 0 64 Mat fun i Mat => do
    let Mat ← wr2 Mat i 0 (← rd idM64 i)
    let Mat ← wr2 Mat i 1 0
    pure Mat
  let Mat ← forUp 64 128 Mat fun i Mat => do
    let Mat ← wr2 Mat i 0 0
    let Mat ← wr2 Mat i 1 (← rd idM64 (i - 64))
    pure Mat
  pure Mat

/-- `printM128` — `/repo/src/WBMatrix/WBMatrix.c:401-409`. -/
def printM128 (Mat : M128) : CM Unit :=
  forUp 0 128 () fun i _ => do
    printf "0x%llx " [.u64 (← liftC (rd2 Mat i 0))]
    printf "0x%llx\n" [.u64 (← liftC (rd2 Mat i 1))]

/-- `printV128` — `/repo/src/WBMatrix/WBMatrix.c:441-445`. -/
def printV128 (Vec : V128) : CM Unit := do
  printf "0x%llx " [.u64 (← liftC (rd Vec 0))]
  printf "0x%llx\n" [.u64 (← liftC (rd Vec 1))]

/-- `copyM128` — `/repo/src/WBMatrix/WBMatrix.c:493-501`. -/
def copyM128 (Mat1 Mat2 : M128) : C M128 :=
  forUp 0 128 Mat2 fun i Mat2 => do
    let Mat2 ← wr2 Mat2 i 0 (← rd2 Mat1 i 0)
    let Mat2 ← wr2 Mat2 i 1 (← rd2 Mat1 i 1)
    pure Mat2

/-- `isequalM128` — `/repo/src/WBMatrix/WBMatrix.c:558-567`. -/
def isequalM128 (Mat1 Mat2 : M128) : C Int := do
  let r ← forRet (ρ := Int) 0 128 () fun i _ => do
    if (← rd2 Mat1 i 0) != (← rd2 Mat2 i 0) then return .stop 0
    if (← rd2 Mat1 i 1) != (← rd2 Mat2 i 1) then return .stop 0
    return .next ()
  match r with
  | .stop r => pure r
  | .next _ => pure 1

/-- `isequalV128` — `/repo/src/WBMatrix/WBMatrix.c:605-610`. -/
def isequalV128 (Vec1 Vec2 : V128) : C Int := do
  if (← rd Vec1 0) != (← rd Vec2 0) then return 0
  if (← rd Vec1 1) != (← rd Vec2 1) then return 0
  return 1

/-- `readbitM128` — `/repo/src/WBMatrix/WBMatrix.c:644-656`. -/
def readbitM128 (Mat : M128) (i j : Int) : C Int := do
  if j < 64 then
    let x ← rdI2 Mat i 0
    let m ← rdI idM64 j
    if x &&& m == m then pure 1 else pure 0
  else
    let x ← rdI2 Mat i 1
    let m ← rdI idM64 (j - 64)
    if x &&& m == m then pure 1 else pure 0

/-- `flipbitM128` — `/repo/src/WBMatrix/WBMatrix.c:700-710`. -/
def flipbitM128 (Mat : M128) (i j : Int) : C M128 := do
  if j < 64 then
    wrI2 Mat i 0 ((← rdI2 Mat i 0) ^^^ (← rdI idM64 j))
  else
    wrI2 Mat i 1 ((← rdI2 Mat i 1) ^^^ (← rdI idM64 (j - 64)))

/-- `setbitM128` — `/repo/src/WBMatrix/WBMatrix.c:755-759`. -/
def setbitM128 (Mat : M128) (i j bit : Int) : C M128 := do
  if (← readbitM128 Mat i j) == bit then pure Mat else flipbitM128 Mat i j

/-- `isinvertM128` — `/repo/src/WBMatrix/WBMatrix.c:985-1070`. `Mat` is a by-value copy that the function destroys. -/
def isinvertM128 (Mat : M128) : C Int := do
  let r ← forRet (ρ := Int) 0 64 Mat fun i Mat => do
    if ← hasBit2 Mat i 0 idM64 i then
      let Mat ← forUp (i + 1) 128 Mat fun j Mat => do
        if ← hasBit2 Mat j 0 idM64 i then xorWords [0, 1] Mat j i else pure Mat
      pure (.next Mat)
    else
      let (Mat, flag) ← forBrk (i + 1) 128 (Mat, true) fun j (Mat, flag) => do
        if ← hasBit2 Mat j 0 idM64 i then
          let Mat ← swapWords [0, 1] Mat i j
          pure (.stop (Mat, false))
        else pure (.next (Mat, flag))
      if flag then pure (.stop 0)
      else
        let Mat ← forUp (i + 1) 128 Mat fun k Mat => do
          if ← hasBit2 Mat k 0 idM64 i then xorWords [0, 1] Mat k i else pure Mat
        pure (.next Mat)
  match r with
  | .stop r => pure r
  | .next Mat => do
    let r ← forRet (ρ := Int) 64 128 Mat fun i Mat => do
      if ← hasBit2 Mat i 1 idM64 (i - 64) then
        let Mat ← forUp (i + 1) 128 Mat fun j Mat => do
          if ← hasBit2 Mat j 1 idM64 (i - 64) then xorWords [1] Mat j i else pure Mat
        pure (.next Mat)
      else
        let (Mat, flag) ← forBrk (i + 1) 128 (Mat, true) fun j (Mat, flag) => do
          if ← hasBit2 Mat j 1 idM64 (i - 64) then
            let Mat ← swapWords [1] Mat i j
            pure (.stop (Mat, false))
          else pure (.next (Mat, flag))
        if flag then pure (.stop 0)
        else
          let Mat ← forUp (i + 1) 128 Mat fun k Mat => do
            if ← hasBit2 Mat k 1 idM64 (i - 64) then xorWords [1] Mat k i else pure Mat
          pure (.next Mat)
    match r with
    | .stop r => pure r
    | .next Mat => do
      if (← rd2 Mat 127 1) == (← rd idM64 63) then pure 1 else pure 0

/-- `invsM128` — `/repo/src/WBMatrix/WBMatrix.c:1543-1672`. `Mat` is a by-value copy that the function destroys. -/
def invsM128 (Mat Mat_inv : M128) : C M128 := do
  let Mat_inv ← identityM128 Mat_inv
  let s := (Mat, Mat_inv)
  let s ← forUp 0 64 s fun i (Mat, Mat_inv) => do
    if ← hasBit2 Mat i 0 idM64 i then
      forUp (i + 1) 128 (Mat, Mat_inv) fun j (Mat, Mat_inv) => do
        if ← hasBit2 Mat j 0 idM64 i then
          let Mat ← xorWords [0, 1] Mat j i
          let Mat_inv ← xorWords [0, 1] Mat_inv j i
          pure (Mat, Mat_inv)
        else pure (Mat, Mat_inv)
    else
      let s ← forBrk (i + 1) 128 (Mat, Mat_inv) fun j (Mat, Mat_inv) => do
        if ← hasBit2 Mat j 0 idM64 i then
          let Mat ← swapWords [0, 1] Mat i j
          let Mat_inv ← swapWords [0, 1] Mat_inv i j
          pure (.stop (Mat, Mat_inv))
        else pure (.next (Mat, Mat_inv))
      forUp (i + 1) 128 s fun k (Mat, Mat_inv) => do
        if ← hasBit2 Mat k 0 idM64 i then
          let Mat ← xorWords [0, 1] Mat k i
          let Mat_inv ← xorWords [0, 1] Mat_inv k i
          pure (Mat, Mat_inv)
        else pure (Mat, Mat_inv)
  let s ← forUp 64 128 s fun i (Mat, Mat_inv) => do
    if ← hasBit2 Mat i 1 idM64 (i - 64) then
      forUp (i + 1) 128 (Mat, Mat_inv) fun j (Mat, Mat_inv) => do
        if ← hasBit2 Mat j 1 idM64 (i - 64) then
          let Mat ← xorWords [1] Mat j i
          let Mat_inv ← xorWords [0, 1] Mat_inv j i
          pure (Mat, Mat_inv)
        else pure (Mat, Mat_inv)
    else
      let s ← forBrk (i + 1) 128 (Mat, Mat_inv) fun j (Mat, Mat_inv) => do
        if ← hasBit2 Mat j 1 idM64 (i - 64) then
          let Mat ← swapWords [1] Mat i j
          let Mat_inv ← swapWords [0, 1] Mat_inv i j
          pure (.stop (Mat, Mat_inv))
        else pure (.next (Mat, Mat_inv))
      forUp (i + 1) 128 s fun k (Mat, Mat_inv) => do
        if ← hasBit2 Mat k 1 idM64 (i - 64) then
          let Mat ← xorWords [1] Mat k i
          let Mat_inv ← xorWords [0, 1] Mat_inv k i
          pure (Mat, Mat_inv)
        else pure (Mat, Mat_inv)
  let s ← forDown 128 64 s fun i s =>
    forDown i 0 s fun j (Mat, Mat_inv) => do
      if ← hasBit2 Mat j 1 idM64 (i - 64) then
        let Mat ← xorWords [1] Mat j i
        let Mat_inv ← xorWords [0, 1] Mat_inv j i
        pure (Mat, Mat_inv)
      else pure (Mat, Mat_inv)
  let s ← forDown 64 0 s fun i s =>
    forDown i 0 s fun j (Mat, Mat_inv) => do
      if ← hasBit2 Mat j 0 idM64 i then
        let Mat ← xorWords [0] Mat j i
        let Mat_inv ← xorWords [0, 1] Mat_inv j i
        pure (Mat, Mat_inv)
      else pure (Mat, Mat_inv)
  pure s.2

/-- `xorU128` — `/repo/src/WBMatrix/WBMatrix.c:2089-2095`. -/
def xorU128 (env : Env) (n : Vector (BitVec 64) 2) : C Int := do
  let temp := (← rd n 0) ^^^ (← rd n 1)
  if (← xorU64 env temp) != 0 then pure 1 else pure 0

/-- `HWU128` — `/repo/src/WBMatrix/WBMatrix.c:2126-2129`. -/
def HWU128 (env : Env) (n : Vector (BitVec 64) 2) : C Int := do
  pure ((← HWU64 env (← rd n 0)) + (← HWU64 env (← rd n 1)))

/-- `printU128` — `/repo/src/WBMatrix/WBMatrix.c:2146-2150`. -/
def printU128 (n : Vector (BitVec 64) 2) : CM Unit := do
  printf "0llx%x " [.u64 (← liftC (rd n 0))]
  printf "0llx%x\n" [.u64 (← liftC (rd n 1))]

/-- `printbitM128` — `/repo/src/WBMatrix/WBMatrix.c:2243-2266`. -/
def printbitM128 (Mat : M128) : CM Unit := do
  forUp 0 128 () fun i _ => do
    let temp ← liftC (rd2 Mat i 0)
    let _ ← forUp 0 64 temp fun _j temp => do
      if temp &&& 0x8000000000000000 != 0 then printf "%d " [.i32 1] else printf "%d " [.i32 0]
      pure (temp <<< 1)
    let temp ← liftC (rd2 Mat i 1)
    let _ ← forUp 0 64 temp fun _j temp => do
      if temp &&& 0x8000000000000000 != 0 then printf "%d " [.i32 1] else printf "%d " [.i32 0]
      pure (temp <<< 1)
    printf "\n" []
  printf "\n" []

/-- `VecAddVecV128` — `/repo/src/WBMatrix/WBMatrix.c:2287-2291`. -/
def VecAddVecV128 (Vec1 Vec2 Vec : V128) : C V128 := do
  let Vec ← wr Vec 0 ((← rd Vec1 0) ^^^ (← rd Vec2 0))
  let Vec ← wr Vec 1 ((← rd Vec1 1) ^^^ (← rd Vec2 1))
  pure Vec

/-- `MatMulVecM128` — `/repo/src/WBMatrix/WBMatrix.c:2394-2411`. -/
def MatMulVecM128 (env : Env) (Mat : M128) (Vec : V128) (ans : V128) : C V128 := do
  let ans ← initV128 ans
  let s := (ans, env.junkArr 64 2)
  let s ← forUp 0 64 s fun i (ans, temp) => do
    let temp ← wr temp 0 ((← rd2 Mat i 0) &&& (← rd Vec 0))
    let temp ← wr temp 1 ((← rd2 Mat i 1) &&& (← rd Vec 1))
    if (← xorU128 env temp) != 0 then
      let ans ← wr ans 0 ((← rd ans 0) ^^^ (← rd idM64 i))
      pure (ans, temp)
    else pure (ans, temp)
  let s ← forUp 64 128 s fun i (ans, temp) => do
    let temp ← wr temp 0 ((← rd2 Mat i 0) &&& (← rd Vec 0))
    let temp ← wr temp 1 ((← rd2 Mat i 1) &&& (← rd Vec 1))
    if (← xorU128 env temp) != 0 then
      let ans ← wr ans 1 ((← rd ans 1) ^^^ (← rd idM64 (i - 64)))
      pure (ans, temp)
    else pure (ans, temp)
  pure s.1

/-- `affineU128` — `/repo/src/WBMatrix/WBMatrix.c:2046-2054`. `arr` is read completely before `ans` is written, so the function is also correct when both point to the same array. -/
def affineU128 (env : Env) (aff : Aff128) (arr ans : Vector (BitVec 64) 2) :
    C (Vector (BitVec 64) 2) := do
  let mul_vec ← wr (env.junkArr 64 2) 0 (← rd arr 0)
  let mul_vec ← wr mul_vec 1 (← rd arr 1)
  let ans_vec ← MatMulVecM128 env aff.Mat mul_vec (env.junkArr 64 2)
  let ans ← wr ans 0 ((← rd ans_vec 0) ^^^ (← rd aff.Vec 0))
  let ans ← wr ans 1 ((← rd ans_vec 1) ^^^ (← rd aff.Vec 1))
  pure ans

/-- `MattransM128` — `/repo/src/WBMatrix/WBMatrix.c:4899-4932`. `k`, `k2`, `l` are small unsigned numbers, modelled by `Nat`. -/
def MattransM128 (env : Env) (Mat Mat_trans : M128) : C M128 := do
  let mask := env.junkArr 64 6
  let mask ← wr mask 0 0x5555555555555555
  let mask ← wr mask 1 0x3333333333333333
  let mask ← wr mask 2 0x0f0f0f0f0f0f0f0f
  let mask ← wr mask 3 0x00ff00ff00ff00ff
  let mask ← wr mask 4 0x0000ffff0000ffff
  let mask ← wr mask 5 0x00000000ffffffff
  let Mat ← forUp 0 6 Mat fun j Mat => do
    let k := 1 <<< j
    let k2 := k * 2
    forUp 0 64 Mat fun i Mat => do
      let l := (k2 * i) % 127
      let temp := ((← rd2 Mat l 0) &&& ~~~(← rd mask j)) ^^^ (((← rd2 Mat (l + k) 0) &&& ~~~(← rd mask j)) >>> k)
      let Mat ← wr2 Mat (l + k) 0 (((← rd2 Mat (l + k) 0) &&& (← rd mask j)) ^^^ (((← rd2 Mat l 0) &&& (← rd mask j)) <<< k))
      let Mat ← wr2 Mat l 0 temp
      let temp := ((← rd2 Mat l 1) &&& ~~~(← rd mask j)) ^^^ (((← rd2 Mat (l + k) 1) &&& ~~~(← rd mask j)) >>> k)
      let Mat ← wr2 Mat (l + k) 1 (((← rd2 Mat (l + k) 1) &&& (← rd mask j)) ^^^ (((← rd2 Mat l 1) &&& (← rd mask j)) <<< k))
      let Mat ← wr2 Mat l 1 temp
      pure Mat
  let Mat ← forUp 0 64 Mat fun i Mat => do
    let temp ← rd2 Mat (i + 64) 0
    let Mat ← wr2 Mat (i + 64) 0 (← rd2 Mat i 1)
    let Mat ← wr2 Mat i 1 temp
    pure Mat
  copyM128 Mat Mat_trans

/-- `MatAddMatM128` — `/repo/src/WBMatrix/WBMatrix.c:5037-5045`. -/
def MatAddMatM128 (Mat1 Mat2 Mat : M128) : C M128 :=
  forUp 0 128 Mat fun i Mat => do
    let Mat ← wr2 Mat i 0 ((← rd2 Mat1 i 0) ^^^ (← rd2 Mat2 i 0))
    let Mat ← wr2 Mat i 1 ((← rd2 Mat1 i 1) ^^^ (← rd2 Mat2 i 1))
    pure Mat

/-- `MatMulMatM128` — `/repo/src/WBMatrix/WBMatrix.c:5126-5148`. -/
def MatMulMatM128 (env : Env) (Mat1 Mat2 Mat : M128) : C M128 := do
  let Mat ← initM128 Mat
  let Mat2_trans ← MattransM128 env Mat2 (env.junkArr2 64 2 128)
  let s ← forUp 0 128 (Mat, env.junkArr 64 2) fun i s => do
    let s ← forUp 0 64 s fun j (Mat, temp) => do
      let temp ← wr temp 0 ((← rd2 Mat1 i 0) &&& (← rd2 Mat2_trans j 0))
      let temp ← wr temp 1 ((← rd2 Mat1 i 1) &&& (← rd2 Mat2_trans j 1))
      if (← xorU128 env temp) != 0 then
        let Mat ← wr2 Mat i 0 ((← rd2 Mat i 0) ^^^ (← rd idM64 j))
        pure (Mat, temp)
      else pure (Mat, temp)
    let s ← forUp 64 128 s fun j (Mat, temp) => do
      let temp ← wr temp 0 ((← rd2 Mat1 i 0) &&& (← rd2 Mat2_trans j 0))
      let temp ← wr temp 1 ((← rd2 Mat1 i 1) &&& (← rd2 Mat2_trans j 1))
      if (← xorU128 env temp) != 0 then
        let Mat ← wr2 Mat i 1 ((← rd2 Mat i 1) ^^^ (← rd idM64 (j - 64)))
        pure (Mat, temp)
      else pure (Mat, temp)
    pure s
  pure s.1

/-- `genMatpairM128` — `/repo/src/WBMatrix/WBMatrix.c:3235-3563`. `Mat` and `Mat_inv` are assumed to point to different objects. The unused local `q` is omitted. -/
def genMatpairM128 (env : Env) (Mat Mat_inv : M128) : CM (M128 × M128) := do
  reseed
  let Mat ← liftC (identityM128 Mat)
  let Mat_inv ← liftC (identityM128 Mat_inv)
  let tempMat ← randM128 env (env.junkArr2 64 2 128)
  let resultMat ← liftC (copyM128 tempMat (env.junkArr2 64 2 128))
  let s : GenSt M128 16384 :=
    { tempMat, Mat_inv, trail := env.junkArr2 8 3 16384, times := 0, invertible := true }
  let s ← forUp 0 64 s fun i s => do
    if ← liftC (hasBit2 s.tempMat i 0 idM64 i) then
      liftC <| forUp (i + 1) 128 s fun j s => do
        if ← hasBit2 s.tempMat j 0 idM64 i then
          let tempMat ← xorWords [0, 1] s.tempMat j i
          let Mat_inv ← xorWords [0, 1] s.Mat_inv j i
          GenSt.record { s with tempMat, Mat_inv } 1 j i
        else pure s
    else
      let (s, flag) ← liftC <| forBrk (i + 1) 128 (s, true) fun j (s, flag) => do
        if ← hasBit2 s.tempMat j 0 idM64 i then
          let tempMat ← swapWords [0, 1] s.tempMat i j
          let Mat_inv ← swapWords [0, 1] s.Mat_inv i j
          let s ← GenSt.record { s with tempMat, Mat_inv } 0 j i
          pure (.stop (s, false))
        else pure (.next (s, flag))
      if flag then
        let s := { s with invertible := false }
        let r ← cus_random
        let s ← liftC do
          let p := i + 1 + (← umod r (BitVec.ofNat 32 (127 - i))).toNat
          let tempMat ← swapWords [0, 1] s.tempMat p i
          let Mat_inv ← swapWords [0, 1] s.Mat_inv p i
          GenSt.record { s with tempMat, Mat_inv } 0 p i
        forUp (i + 1) 128 s fun t s => do
          let r ← cus_random
          liftC do
            if (← umod r 2) != 0 then
              let tempMat ← xorWords [0, 1] s.tempMat t i
              let Mat_inv ← xorWords [0, 1] s.Mat_inv t i
              GenSt.record { s with tempMat, Mat_inv } 1 t i
            else pure s
      else
        liftC <| forUp (i + 1) 128 s fun k s => do
          if ← hasBit2 s.tempMat k 0 idM64 i then
            let tempMat ← xorWords [0, 1] s.tempMat k i
            let Mat_inv ← xorWords [0, 1] s.Mat_inv k i
            GenSt.record { s with tempMat, Mat_inv } 1 k i
          else pure s
  let s ← forUp 64 128 s fun i s => do
    if ← liftC (hasBit2 s.tempMat i 1 idM64 (i - 64)) then
      liftC <| forUp (i + 1) 128 s fun j s => do
        if ← hasBit2 s.tempMat j 1 idM64 (i - 64) then
          let tempMat ← xorWords [1] s.tempMat j i
          let Mat_inv ← xorWords [0, 1] s.Mat_inv j i
          GenSt.record { s with tempMat, Mat_inv } 1 j i
        else pure s
    else
      let (s, flag) ← liftC <| forBrk (i + 1) 128 (s, true) fun j (s, flag) => do
        if ← hasBit2 s.tempMat j 1 idM64 (i - 64) then
          let tempMat ← swapWords [1] s.tempMat i j
          let Mat_inv ← swapWords [0, 1] s.Mat_inv i j
          let s ← GenSt.record { s with tempMat, Mat_inv } 0 j i
          pure (.stop (s, false))
        else pure (.next (s, flag))
      if flag then
        let s := { s with invertible := false }
        if i < 127 then
          let r ← cus_random
          let s ← liftC do
            let p := i + 1 + (← umod r (BitVec.ofNat 32 (127 - i))).toNat
            let tempMat ← swapWords [1] s.tempMat p i
            let Mat_inv ← swapWords [0, 1] s.Mat_inv p i
            GenSt.record { s with tempMat, Mat_inv } 0 p i
          forUp (i + 1) 128 s fun t s => do
            let r ← cus_random
            liftC do
              if (← umod r 2) != 0 then
                let tempMat ← xorWords [1] s.tempMat t i
                let Mat_inv ← xorWords [0, 1] s.Mat_inv t i
                GenSt.record { s with tempMat, Mat_inv } 1 t i
              else pure s
        else pure s
      else
        liftC <| forUp (i + 1) 128 s fun k s => do
          if ← hasBit2 s.tempMat k 1 idM64 (i - 64) then
            let tempMat ← xorWords [1] s.tempMat k i
            let Mat_inv ← xorWords [0, 1] s.Mat_inv k i
            GenSt.record { s with tempMat, Mat_inv } 1 k i
          else pure s
  liftC do
    if !s.invertible then
      let s ← forDown 128 64 s fun t s =>
        forDown t 0 s fun j s => do
          if ← hasBit2 s.tempMat j 1 idM64 (t - 64) then
            let tempMat ← xorWords [1] s.tempMat j t
            let Mat_inv ← xorWords [0, 1] s.Mat_inv j t
            GenSt.record { s with tempMat, Mat_inv } 1 j t
          else pure s
      let s ← forDown 64 0 s fun t s =>
        forDown t 0 s fun j s => do
          if ← hasBit2 s.tempMat j 0 idM64 t then
            let tempMat ← xorWords [0] s.tempMat j t
            let Mat_inv ← xorWords [0, 1] s.Mat_inv j t
            GenSt.record { s with tempMat, Mat_inv } 1 j t
          else pure s
      let Mat ← forDown s.times 0 Mat fun j Mat => do
        if (← rd2 s.trail j 0) != 0 then
          xorWords [0, 1] Mat (← rd2 s.trail j 1).toNat (← rd2 s.trail j 2).toNat
        else
          swapWords [0, 1] Mat (← rd2 s.trail j 1).toNat (← rd2 s.trail j 2).toNat
      pure (Mat, s.Mat_inv)
    else
      let s := (s.tempMat, s.Mat_inv)
      let s ← forDown 128 64 s fun i s =>
        forDown i 0 s fun j (tempMat, Mat_inv) => do
          if ← hasBit2 tempMat j 1 idM64 (i - 64) then
            let tempMat ← xorWords [1] tempMat j i
            let Mat_inv ← xorWords [0, 1] Mat_inv j i
            pure (tempMat, Mat_inv)
          else pure (tempMat, Mat_inv)
      let s ← forDown 64 0 s fun i s =>
        forDown i 0 s fun j (tempMat, Mat_inv) => do
          if ← hasBit2 tempMat j 0 idM64 i then
            let tempMat ← xorWords [0] tempMat j i
            let Mat_inv ← xorWords [0, 1] Mat_inv j i
            pure (tempMat, Mat_inv)
          else pure (tempMat, Mat_inv)
      let Mat ← copyM128 resultMat Mat
      pure (Mat, s.2)

/-- `genaffinepairM128` — `/repo/src/WBMatrix/WBMatrix.c:4370-4375`. -/
def genaffinepairM128 (env : Env) (aff aff_inv : Aff128) : CM (Aff128 × Aff128) := do
  let (Mat, Mat_inv) ← genMatpairM128 env aff.Mat aff_inv.Mat
  let Vec ← randV128 env aff.Vec
  let Vec_inv ← liftC (MatMulVecM128 env Mat_inv Vec aff_inv.Vec)
  pure (⟨Mat, Vec⟩, ⟨Mat_inv, Vec_inv⟩)

/-- `affinemixM128` — `/repo/src/WBMatrix/WBMatrix.c:5222-5228`. -/
def affinemixM128 (env : Env) (aff preaff_inv mixaff : Aff128) : C Aff128 := do
  let Mat ← MatMulMatM128 env aff.Mat preaff_inv.Mat mixaff.Mat
  let Vec ← MatMulVecM128 env aff.Mat preaff_inv.Vec mixaff.Vec
  let Vec ← wr Vec 0 ((← rd Vec 0) ^^^ (← rd aff.Vec 0))
  let Vec ← wr Vec 1 ((← rd Vec 1) ^^^ (← rd aff.Vec 1))
  pure ⟨Mat, Vec⟩

end WB
