import Verif.Model.M64

/-!
# 256-bit functions of `/repo/src/WBMatrix/WBMatrix.c`

Generated once by `tools/gen_big.py`; kept under version control as source.
A row is an array of 4 64-bit words; the elimination functions are split into 4 phases, one
per word, that skip the words to the left (which are zero at that point).
A parameter that is an output pointer in C carries the old contents of its target and the
function returns the new contents.
-/
namespace WB

/-- `initM256` — `/repo/src/WBMatrix/WBMatrix.c:96-106`. -/
def initM256 (Mat : M256) : C M256 :=
  forUp 0 256 Mat fun i Mat => do
    let Mat ← wr2 Mat i 0 0
    let Mat ← wr2 Mat i 1 0
    let Mat ← wr2 Mat i 2 0
    let Mat ← wr2 Mat i 3 0
    pure Mat

/-- `initV256` — `/repo/src/WBMatrix/WBMatrix.c:132-138`. -/
def initV256 (Vec : V256) : C V256 := do
  let Vec ← wr Vec 0 0
  let Vec ← wr Vec 1 0
  let Vec ← wr Vec 2 0
  let Vec ← wr Vec 3 0
  pure Vec

/-- `randM256` — `/repo/src/WBMatrix/WBMatrix.c:202-222`. The `uint32_t*` pointer `m` writes, for each word, first the cell `m + 1`, then `m`. -/
def randM256 (env : Env) (Mat : M256) : CM M256 := do
  reseed
  forUp 0 256 Mat fun i Mat => do
    let r ← cus_random
    let Mat ← liftC do wr2 Mat i 0 (← env.stSub (← rd2 Mat i 0) 1 r)
    let r ← cus_random
    let Mat ← liftC do wr2 Mat i 0 (← env.stSub (← rd2 Mat i 0) 0 r)
    let r ← cus_random
    let Mat ← liftC do wr2 Mat i 1 (← env.stSub (← rd2 Mat i 1) 1 r)
    let r ← cus_random
    let Mat ← liftC do wr2 Mat i 1 (← env.stSub (← rd2 Mat i 1) 0 r)
    let r ← cus_random
    let Mat ← liftC do wr2 Mat i 2 (← env.stSub (← rd2 Mat i 2) 1 r)
    let r ← cus_random
    let Mat ← liftC do wr2 Mat i 2 (← env.stSub (← rd2 Mat i 2) 0 r)
    let r ← cus_random
    let Mat ← liftC do wr2 Mat i 3 (← env.stSub (← rd2 Mat i 3) 1 r)
    let r ← cus_random
    let Mat ← liftC do wr2 Mat i 3 (← env.stSub (← rd2 Mat i 3) 0 r)
    pure Mat

/-- `randV256` — `/repo/src/WBMatrix/WBMatrix.c:345-360`. -/
def randV256 (env : Env) (Vec : V256) : CM V256 := do
  reseed
  let r ← cus_random
  let Vec ← liftC do wr Vec 0 (← env.stSub (← rd Vec 0) 1 r)
  let r ← cus_random
  let Vec ← liftC do wr Vec 0 (← env.stSub (← rd Vec 0) 0 r)
  let r ← cus_random
  let Vec ← liftC do wr Vec 1 (← env.stSub (← rd Vec 1) 1 r)
  let r ← cus_random
  let Vec ← liftC do wr Vec 1 (← env.stSub (← rd Vec 1) 0 r)
  let r ← cus_random
  let Vec ← liftC do wr Vec 2 (← env.stSub (← rd Vec 2) 1 r)
  let r ← cus_random
  let Vec ← liftC do wr Vec 2 (← env.stSub (← rd Vec 2) 0 r)
  let r ← cus_random
  let Vec ← liftC do wr Vec 3 (← env.stSub (← rd Vec 3) 1 r)
  let r ← cus_random
  let Vec ← liftC do wr Vec 3 (← env.stSub (← rd Vec 3) 0 r)
  pure Vec

/-- `identityM256` — `/repo/src/WBMatrix/WBMatrix.c:277-308`. -/
def identityM256 (Mat : M256) : C M256 := do
  let Mat ← forUp 0 64 Mat fun i Mat => do
    let Mat ← wr2 Mat i 0 (← rd idM64 i)
    let Mat ← wr2 Mat i 1 0
    let Mat ← wr2 Mat i 2 0
    let Mat ← wr2 Mat i 3 0
    pure Mat
  let Mat ← forUp 64 128 Mat fun i Mat => do
    let Mat ← wr2 Mat i 0 0
    let Mat ← wr2 Mat i 1 (← rd idM64 (i - 64))
    let Mat ← wr2 Mat i 2 0
    let Mat ← wr2 Mat i 3 0
    pure Mat
  let Mat ← forUp 128 192 Mat fun i Mat => do
    let Mat ← wr2 Mat i 0 0
    let Mat ← wr2 Mat i 1 0
    let Mat ← wr2 Mat i 2 (← rd idM64 (i - 128))
    let Mat ← wr2 Mat i 3 0
    pure Mat
  let Mat ← forUp 192 256 Mat fun i Mat => do
    let Mat ← wr2 Mat i 0 0
    let Mat ← wr2 Mat i 1 0
    let Mat ← wr2 Mat i 2 0
    let Mat ← wr2 Mat i 3 (← rd idM64 (i - 192))
    pure Mat
  pure Mat

/-- `printM256` — `/repo/src/WBMatrix/WBMatrix.c:410-420`. -/
def printM256 (Mat : M256) : CM Unit :=
  forUp 0 256 () fun i _ => do
    printf "0x%llx " [.u64 (← liftC (rd2 Mat i 0))]
    printf "0x%llx " [.u64 (← liftC (rd2 Mat i 1))]
    printf "0x%llx " [.u64 (← liftC (rd2 Mat i 2))]
    printf "0x%llx\n" [.u64 (← liftC (rd2 Mat i 3))]

/-- `printV256` — `/repo/src/WBMatrix/WBMatrix.c:446-452`. -/
def printV256 (Vec : V256) : CM Unit := do
  printf "0x%llx " [.u64 (← liftC (rd Vec 0))]
  printf "0x%llx " [.u64 (← liftC (rd Vec 1))]
  printf "0x%llx " [.u64 (← liftC (rd Vec 2))]
  printf "0x%llx\n" [.u64 (← liftC (rd Vec 3))]

/-- `copyM256` — `/repo/src/WBMatrix/WBMatrix.c:502-512`. -/
def copyM256 (Mat1 Mat2 : M256) : C M256 :=
  forUp 0 256 Mat2 fun i Mat2 => do
    let Mat2 ← wr2 Mat2 i 0 (← rd2 Mat1 i 0)
    let Mat2 ← wr2 Mat2 i 1 (← rd2 Mat1 i 1)
    let Mat2 ← wr2 Mat2 i 2 (← rd2 Mat1 i 2)
    let Mat2 ← wr2 Mat2 i 3 (← rd2 Mat1 i 3)
    pure Mat2

/-- `isequalM256` — `/repo/src/WBMatrix/WBMatrix.c:568-579`. -/
def isequalM256 (Mat1 Mat2 : M256) : C Int := do
  let r ← forRet (ρ := Int) 0 256 () fun i _ => do
    if (← rd2 Mat1 i 0) != (← rd2 Mat2 i 0) then return .stop 0
    if (← rd2 Mat1 i 1) != (← rd2 Mat2 i 1) then return .stop 0
    if (← rd2 Mat1 i 2) != (← rd2 Mat2 i 2) then return .stop 0
    if (← rd2 Mat1 i 3) != (← rd2 Mat2 i 3) then return .stop 0
    return .next ()
  match r with
  | .stop r => pure r
  | .next _ => pure 1

/-- `isequalV256` — `/repo/src/WBMatrix/WBMatrix.c:611-618`. The source compares word 1 three times. -/
def isequalV256 (Vec1 Vec2 : V256) : C Int := do
  if (← rd Vec1 0) != (← rd Vec2 0) then return 0
  if (← rd Vec1 1) != (← rd Vec2 1) then return 0
  if (← rd Vec1 1) != (← rd Vec2 1) then return 0
  if (← rd Vec1 1) != (← rd Vec2 1) then return 0
  return 1

/-- `readbitM256` — `/repo/src/WBMatrix/WBMatrix.c:657-679`. -/
def readbitM256 (Mat : M256) (i j : Int) : C Int := do
  if j < 64 then
    let x ← rdI2 Mat i 0
    let m ← rdI idM64 j
    if x &&& m == m then pure 1 else pure 0
  else if j < 128 then
    let x ← rdI2 Mat i 1
    let m ← rdI idM64 (j - 64)
    if x &&& m == m then pure 1 else pure 0
  else if j < 192 then
    let x ← rdI2 Mat i 2
    let m ← rdI idM64 (j - 128)
    if x &&& m == m then pure 1 else pure 0
  else
    let x ← rdI2 Mat i 3
    let m ← rdI idM64 (j - 192)
    if x &&& m == m then pure 1 else pure 0

/-- `flipbitM256` — `/repo/src/WBMatrix/WBMatrix.c:711-729`. -/
def flipbitM256 (Mat : M256) (i j : Int) : C M256 := do
  if j < 64 then
    wrI2 Mat i 0 ((← rdI2 Mat i 0) ^^^ (← rdI idM64 j))
  else if j < 128 then
    wrI2 Mat i 1 ((← rdI2 Mat i 1) ^^^ (← rdI idM64 (j - 64)))
  else if j < 192 then
    wrI2 Mat i 2 ((← rdI2 Mat i 2) ^^^ (← rdI idM64 (j - 128)))
  else
    wrI2 Mat i 3 ((← rdI2 Mat i 3) ^^^ (← rdI idM64 (j - 192)))

/-- `setbitM256` — `/repo/src/WBMatrix/WBMatrix.c:760-764`. -/
def setbitM256 (Mat : M256) (i j bit : Int) : C M256 := do
  if (← readbitM256 Mat i j) == bit then pure Mat else flipbitM256 Mat i j

/-- `isinvertM256` — `/repo/src/WBMatrix/WBMatrix.c:1071-1262`. `Mat` is a by-value copy that the function destroys. -/
def isinvertM256 (Mat : M256) : C Int := do
  let r ← forRet (ρ := Int) 0 64 Mat fun i Mat => do
    if ← hasBit2 Mat i 0 idM64 i then
      let Mat ← forUp (i + 1) 256 Mat fun j Mat => do
        if ← hasBit2 Mat j 0 idM64 i then xorWords [0, 1, 2, 3] Mat j i else pure Mat
      pure (.next Mat)
    else
      let (Mat, flag) ← forBrk (i + 1) 256 (Mat, true) fun j (Mat, flag) => do
        if ← hasBit2 Mat j 0 idM64 i then
          let Mat ← swapWords [0, 1, 2, 3] Mat i j
          pure (.stop (Mat, false))
        else pure (.next (Mat, flag))
      if flag then pure (.stop 0)
      else
        let Mat ← forUp (i + 1) 256 Mat fun k Mat => do
          if ← hasBit2 Mat k 0 idM64 i then xorWords [0, 1, 2, 3] Mat k i else pure Mat
        pure (.next Mat)
  match r with
  | .stop r => pure r
  | .next Mat => do
    let r ← forRet (ρ := Int) 64 128 Mat fun i Mat => do
      if ← hasBit2 Mat i 1 idM64 (i - 64) then
        let Mat ← forUp (i + 1) 256 Mat fun j Mat => do
          if ← hasBit2 Mat j 1 idM64 (i - 64) then xorWords [1, 2, 3] Mat j i else pure Mat
        pure (.next Mat)
      else
        let (Mat, flag) ← forBrk (i + 1) 256 (Mat, true) fun j (Mat, flag) => do
          if ← hasBit2 Mat j 1 idM64 (i - 64) then
            let Mat ← swapWords [1, 2, 3] Mat i j
            pure (.stop (Mat, false))
          else pure (.next (Mat, flag))
        if flag then pure (.stop 0)
        else
          let Mat ← forUp (i + 1) 256 Mat fun k Mat => do
            if ← hasBit2 Mat k 1 idM64 (i - 64) then xorWords [1, 2, 3] Mat k i else pure Mat
          pure (.next Mat)
    match r with
    | .stop r => pure r
    | .next Mat => do
      let r ← forRet (ρ := Int) 128 192 Mat fun i Mat => do
        if ← hasBit2 Mat i 2 idM64 (i - 128) then
          let Mat ← forUp (i + 1) 256 Mat fun j Mat => do
            if ← hasBit2 Mat j 2 idM64 (i - 128) then xorWords [2, 3] Mat j i else pure Mat
          pure (.next Mat)
        else
          let (Mat, flag) ← forBrk (i + 1) 256 (Mat, true) fun j (Mat, flag) => do
            if ← hasBit2 Mat j 2 idM64 (i - 128) then
              let Mat ← swapWords [2, 3] Mat i j
              pure (.stop (Mat, false))
            else pure (.next (Mat, flag))
          if flag then pure (.stop 0)
          else
            let Mat ← forUp (i + 1) 256 Mat fun k Mat => do
              if ← hasBit2 Mat k 2 idM64 (i - 128) then xorWords [2, 3] Mat k i else pure Mat
            pure (.next Mat)
      match r with
      | .stop r => pure r
      | .next Mat => do
        let r ← forRet (ρ := Int) 192 256 Mat fun i Mat => do
          if ← hasBit2 Mat i 3 idM64 (i - 192) then
            let Mat ← forUp (i + 1) 256 Mat fun j Mat => do
              if ← hasBit2 Mat j 3 idM64 (i - 192) then xorWords [3] Mat j i else pure Mat
            pure (.next Mat)
          else
            let (Mat, flag) ← forBrk (i + 1) 256 (Mat, true) fun j (Mat, flag) => do
              if ← hasBit2 Mat j 3 idM64 (i - 192) then
                let Mat ← swapWords [3] Mat i j
                pure (.stop (Mat, false))
              else pure (.next (Mat, flag))
            if flag then pure (.stop 0)
            else
              let Mat ← forUp (i + 1) 256 Mat fun k Mat => do
                if ← hasBit2 Mat k 3 idM64 (i - 192) then xorWords [3] Mat k i else pure Mat
              pure (.next Mat)
        match r with
        | .stop r => pure r
        | .next Mat => do
          if (← rd2 Mat 255 3) == (← rd idM64 63) then pure 1 else pure 0

/-- `invsM256` — `/repo/src/WBMatrix/WBMatrix.c:1673-2010`. `Mat` is a by-value copy that the function destroys. -/
def invsM256 (Mat Mat_inv : M256) : C M256 := do
  let Mat_inv ← identityM256 Mat_inv
  let s := (Mat, Mat_inv)
  let s ← forUp 0 64 s fun i (Mat, Mat_inv) => do
    if ← hasBit2 Mat i 0 idM64 i then
      forUp (i + 1) 256 (Mat, Mat_inv) fun j (Mat, Mat_inv) => do
        if ← hasBit2 Mat j 0 idM64 i then
          let Mat ← xorWords [0, 1, 2, 3] Mat j i
          let Mat_inv ← xorWords [0, 1, 2, 3] Mat_inv j i
          pure (Mat, Mat_inv)
        else pure (Mat, Mat_inv)
    else
      let s ← forBrk (i + 1) 256 (Mat, Mat_inv) fun j (Mat, Mat_inv) => do
        if ← hasBit2 Mat j 0 idM64 i then
          let Mat ← swapWords [0, 1, 2, 3] Mat i j
          let Mat_inv ← swapWords [0, 1, 2, 3] Mat_inv i j
          pure (.stop (Mat, Mat_inv))
        else pure (.next (Mat, Mat_inv))
      forUp (i + 1) 256 s fun k (Mat, Mat_inv) => do
        if ← hasBit2 Mat k 0 idM64 i then
          let Mat ← xorWords [0, 1, 2, 3] Mat k i
          let Mat_inv ← xorWords [0, 1, 2, 3] Mat_inv k i
          pure (Mat, Mat_inv)
        else pure (Mat, Mat_inv)
  let s ← forUp 64 128 s fun i (Mat, Mat_inv) => do
    if ← hasBit2 Mat i 1 idM64 (i - 64) then
      forUp (i + 1) 256 (Mat, Mat_inv) fun j (Mat, Mat_inv) => do
        if ← hasBit2 Mat j 1 idM64 (i - 64) then
          let Mat ← xorWords [1, 2, 3] Mat j i
          let Mat_inv ← xorWords [0, 1, 2, 3] Mat_inv j i
          pure (Mat, Mat_inv)
        else pure (Mat, Mat_inv)
    else
      let s ← forBrk (i + 1) 256 (Mat, Mat_inv) fun j (Mat, Mat_inv) => do
        if ← hasBit2 Mat j 1 idM64 (i - 64) then
          let Mat ← swapWords [1, 2, 3] Mat i j
          let Mat_inv ← swapWords [0, 1, 2, 3] Mat_inv i j
          pure (.stop (Mat, Mat_inv))
        else pure (.next (Mat, Mat_inv))
      forUp (i + 1) 256 s fun k (Mat, Mat_inv) => do
        if ← hasBit2 Mat k 1 idM64 (i - 64) then
          let Mat ← xorWords [1, 2, 3] Mat k i
          let Mat_inv ← xorWords [0, 1, 2, 3] Mat_inv k i
          pure (Mat, Mat_inv)
        else pure (Mat, Mat_inv)
  let s ← forUp 128 192 s fun i (Mat, Mat_inv) => do
    if ← hasBit2 Mat i 2 idM64 (i - 128) then
      forUp (i + 1) 256 (Mat, Mat_inv) fun j (Mat, Mat_inv) => do
        if ← hasBit2 Mat j 2 idM64 (i - 128) then
          let Mat ← xorWords [2, 3] Mat j i
          let Mat_inv ← xorWords [0, 1, 2, 3] Mat_inv j i
          pure (Mat, Mat_inv)
        else pure (Mat, Mat_inv)
    else
      let s ← forBrk (i + 1) 256 (Mat, Mat_inv) fun j (Mat, Mat_inv) => do
        if ← hasBit2 Mat j 2 idM64 (i - 128) then
          let Mat ← swapWords [2, 3] Mat i j
          let Mat_inv ← swapWords [0, 1, 2, 3] Mat_inv i j
          pure (.stop (Mat, Mat_inv))
        else pure (.next (Mat, Mat_inv))
      forUp (i + 1) 256 s fun k (Mat, Mat_inv) => do
        if ← hasBit2 Mat k 2 idM64 (i - 128) then
          let Mat ← xorWords [2, 3] Mat k i
          let Mat_inv ← xorWords [0, 1, 2, 3] Mat_inv k i
          pure (Mat, Mat_inv)
        else pure (Mat, Mat_inv)
  let s ← forUp 192 256 s fun i (Mat, Mat_inv) => do
    if ← hasBit2 Mat i 3 idM64 (i - 192) then
      forUp (i + 1) 256 (Mat, Mat_inv) fun j (Mat, Mat_inv) => do
        if ← hasBit2 Mat j 3 idM64 (i - 192) then
          let Mat ← xorWords [3] Mat j i
          let Mat_inv ← xorWords [0, 1, 2, 3] Mat_inv j i
          pure (Mat, Mat_inv)
        else pure (Mat, Mat_inv)
    else
      let s ← forBrk (i + 1) 256 (Mat, Mat_inv) fun j (Mat, Mat_inv) => do
        if ← hasBit2 Mat j 3 idM64 (i - 192) then
          let Mat ← swapWords [3] Mat i j
          let Mat_inv ← swapWords [0, 1, 2, 3] Mat_inv i j
          pure (.stop (Mat, Mat_inv))
        else pure (.next (Mat, Mat_inv))
      forUp (i + 1) 256 s fun k (Mat, Mat_inv) => do
        if ← hasBit2 Mat k 3 idM64 (i - 192) then
          let Mat ← xorWords [3] Mat k i
          let Mat_inv ← xorWords [0, 1, 2, 3] Mat_inv k i
          pure (Mat, Mat_inv)
        else pure (Mat, Mat_inv)
  let s ← forDown 256 192 s fun i s =>
    forDown i 0 s fun j (Mat, Mat_inv) => do
      if ← hasBit2 Mat j 3 idM64 (i - 192) then
        let Mat ← xorWords [3] Mat j i
        let Mat_inv ← xorWords [0, 1, 2, 3] Mat_inv j i
        pure (Mat, Mat_inv)
      else pure (Mat, Mat_inv)
  let s ← forDown 192 128 s fun i s =>
    forDown i 0 s fun j (Mat, Mat_inv) => do
      if ← hasBit2 Mat j 2 idM64 (i - 128) then
        let Mat ← xorWords [2] Mat j i
        let Mat_inv ← xorWords [0, 1, 2, 3] Mat_inv j i
        pure (Mat, Mat_inv)
      else pure (Mat, Mat_inv)
  let s ← forDown 128 64 s fun i s =>
    forDown i 0 s fun j (Mat, Mat_inv) => do
      if ← hasBit2 Mat j 1 idM64 (i - 64) then
        let Mat ← xorWords [1] Mat j i
        let Mat_inv ← xorWords [0, 1, 2, 3] Mat_inv j i
        pure (Mat, Mat_inv)
      else pure (Mat, Mat_inv)
  let s ← forDown 64 0 s fun i s =>
    forDown i 0 s fun j (Mat, Mat_inv) => do
      if ← hasBit2 Mat j 0 idM64 i then
        let Mat ← xorWords [0] Mat j i
        let Mat_inv ← xorWords [0, 1, 2, 3] Mat_inv j i
        pure (Mat, Mat_inv)
      else pure (Mat, Mat_inv)
  pure s.2

/-- `xorU256` — `/repo/src/WBMatrix/WBMatrix.c:2096-2102`. -/
def xorU256 (env : Env) (n : Vector (BitVec 64) 4) : C Int := do
  let temp := (← rd n 0) ^^^ (← rd n 1) ^^^ (← rd n 2) ^^^ (← rd n 3)
  if (← xorU64 env temp) != 0 then pure 1 else pure 0

/-- `printU256` — `/repo/src/WBMatrix/WBMatrix.c:2151-2157`. -/
def printU256 (n : Vector (BitVec 64) 4) : CM Unit := do
  printf "0x%llx " [.u64 (← liftC (rd n 0))]
  printf "0x%llx " [.u64 (← liftC (rd n 1))]
  printf "0x%llx " [.u64 (← liftC (rd n 2))]
  printf "0x%llx\n" [.u64 (← liftC (rd n 3))]

/-- `VecAddVecV256` — `/repo/src/WBMatrix/WBMatrix.c:2292-2298`. -/
def VecAddVecV256 (Vec1 Vec2 Vec : V256) : C V256 := do
  let Vec ← wr Vec 0 ((← rd Vec1 0) ^^^ (← rd Vec2 0))
  let Vec ← wr Vec 1 ((← rd Vec1 1) ^^^ (← rd Vec2 1))
  let Vec ← wr Vec 2 ((← rd Vec1 2) ^^^ (← rd Vec2 2))
  let Vec ← wr Vec 3 ((← rd Vec1 3) ^^^ (← rd Vec2 3))
  pure Vec

/-- `MatMulVecM256` — `/repo/src/WBMatrix/WBMatrix.c:2412-2449`. -/
def MatMulVecM256 (env : Env) (Mat : M256) (Vec : V256) (ans : V256) : C V256 := do
  let ans ← initV256 ans
  let s := (ans, env.junkArr 64 4)
  let s ← forUp 0 64 s fun i (ans, temp) => do
    let temp ← wr temp 0 ((← rd2 Mat i 0) &&& (← rd Vec 0))
    let temp ← wr temp 1 ((← rd2 Mat i 1) &&& (← rd Vec 1))
    let temp ← wr temp 2 ((← rd2 Mat i 2) &&& (← rd Vec 2))
    let temp ← wr temp 3 ((← rd2 Mat i 3) &&& (← rd Vec 3))
    if (← xorU256 env temp) != 0 then
      let ans ← wr ans 0 ((← rd ans 0) ^^^ (← rd idM64 i))
      pure (ans, temp)
    else pure (ans, temp)
  let s ← forUp 64 128 s fun i (ans, temp) => do
    let temp ← wr temp 0 ((← rd2 Mat i 0) &&& (← rd Vec 0))
    let temp ← wr temp 1 ((← rd2 Mat i 1) &&& (← rd Vec 1))
    let temp ← wr temp 2 ((← rd2 Mat i 2) &&& (← rd Vec 2))
    let temp ← wr temp 3 ((← rd2 Mat i 3) &&& (← rd Vec 3))
    if (← xorU256 env temp) != 0 then
      let ans ← wr ans 1 ((← rd ans 1) ^^^ (← rd idM64 (i - 64)))
      pure (ans, temp)
    else pure (ans, temp)
  let s ← forUp 128 192 s fun i (ans, temp) => do
    let temp ← wr temp 0 ((← rd2 Mat i 0) &&& (← rd Vec 0))
    let temp ← wr temp 1 ((← rd2 Mat i 1) &&& (← rd Vec 1))
    let temp ← wr temp 2 ((← rd2 Mat i 2) &&& (← rd Vec 2))
    let temp ← wr temp 3 ((← rd2 Mat i 3) &&& (← rd Vec 3))
    if (← xorU256 env temp) != 0 then
      let ans ← wr ans 2 ((← rd ans 2) ^^^ (← rd idM64 (i - 128)))
      pure (ans, temp)
    else pure (ans, temp)
  let s ← forUp 192 256 s fun i (ans, temp) => do
    let temp ← wr temp 0 ((← rd2 Mat i 0) &&& (← rd Vec 0))
    let temp ← wr temp 1 ((← rd2 Mat i 1) &&& (← rd Vec 1))
    let temp ← wr temp 2 ((← rd2 Mat i 2) &&& (← rd Vec 2))
    let temp ← wr temp 3 ((← rd2 Mat i 3) &&& (← rd Vec 3))
    if (← xorU256 env temp) != 0 then
      let ans ← wr ans 3 ((← rd ans 3) ^^^ (← rd idM64 (i - 192)))
      pure (ans, temp)
    else pure (ans, temp)
  pure s.1

/-- `MattransM256` — `/repo/src/WBMatrix/WBMatrix.c:4933-4996`. `k`, `k2`, `l` are small unsigned numbers, modelled by `Nat`. -/
def MattransM256 (env : Env) (Mat Mat_trans : M256) : C M256 := do
  let mask := env.junkArr 64 6
  let mask ← wr mask 0 0x5555555555555555
  let mask ← wr mask 1 0x3333333333333333
  let mask ← wr mask 2 0x0f0f0f0f0f0f0f0f
  let mask ← wr mask 3 0x00ff00ff00ff00ff
  let mask ← wr mask 4 0x0000ffff0000ffff
  let mask ← wr mask 5 0x00000000ffffffff
  let Mat ← forUp 0 6 Mat fun j Mat => do
    let k := 1 <<< j
    let k2 := k * 2
    forUp 0 128 Mat fun i Mat => do
      let l := (k2 * i) % 255
      let temp := ((← rd2 Mat l 0) &&& ~~~(← rd mask j)) ^^^ (((← rd2 Mat (l + k) 0) &&& ~~~(← rd mask j)) >>> k)
      let Mat ← wr2 Mat (l + k) 0 (((← rd2 Mat (l + k) 0) &&& (← rd mask j)) ^^^ (((← rd2 Mat l 0) &&& (← rd mask j)) <<< k))
      let Mat ← wr2 Mat l 0 temp
      let temp := ((← rd2 Mat l 1) &&& ~~~(← rd mask j)) ^^^ (((← rd2 Mat (l + k) 1) &&& ~~~(← rd mask j)) >>> k)
      let Mat ← wr2 Mat (l + k) 1 (((← rd2 Mat (l + k) 1) &&& (← rd mask j)) ^^^ (((← rd2 Mat l 1) &&& (← rd mask j)) <<< k))
      let Mat ← wr2 Mat l 1 temp
      let temp := ((← rd2 Mat l 2) &&& ~~~(← rd mask j)) ^^^ (((← rd2 Mat (l + k) 2) &&& ~~~(← rd mask j)) >>> k)
      let Mat ← wr2 Mat (l + k) 2 (((← rd2 Mat (l + k) 2) &&& (← rd mask j)) ^^^ (((← rd2 Mat l 2) &&& (← rd mask j)) <<< k))
      let Mat ← wr2 Mat l 2 temp
      let temp := ((← rd2 Mat l 3) &&& ~~~(← rd mask j)) ^^^ (((← rd2 Mat (l + k) 3) &&& ~~~(← rd mask j)) >>> k)
      let Mat ← wr2 Mat (l + k) 3 (((← rd2 Mat (l + k) 3) &&& (← rd mask j)) ^^^ (((← rd2 Mat l 3) &&& (← rd mask j)) <<< k))
      let Mat ← wr2 Mat l 3 temp
      pure Mat
  let Mat ← forUp 0 64 Mat fun i Mat => do
    let temp ← rd2 Mat (i + 64) 0
    let Mat ← wr2 Mat (i + 64) 0 (← rd2 Mat i 1)
    let Mat ← wr2 Mat i 1 temp
    let temp ← rd2 Mat (i + 64) 2
    let Mat ← wr2 Mat (i + 64) 2 (← rd2 Mat i 3)
    let Mat ← wr2 Mat i 3 temp
    let temp ← rd2 Mat (i + 192) 0
    let Mat ← wr2 Mat (i + 192) 0 (← rd2 Mat (i + 128) 1)
    let Mat ← wr2 Mat (i + 128) 1 temp
    let temp ← rd2 Mat (i + 192) 2
    let Mat ← wr2 Mat (i + 192) 2 (← rd2 Mat (i + 128) 3)
    let Mat ← wr2 Mat (i + 128) 3 temp
    pure Mat
  let Mat ← forUp 0 128 Mat fun i Mat => do
    let temp ← rd2 Mat (i + 128) 0
    let Mat ← wr2 Mat (i + 128) 0 (← rd2 Mat i 2)
    let Mat ← wr2 Mat i 2 temp
    let temp ← rd2 Mat (i + 128) 1
    let Mat ← wr2 Mat (i + 128) 1 (← rd2 Mat i 3)
    let Mat ← wr2 Mat i 3 temp
    pure Mat
  copyM256 Mat Mat_trans

/-- `MatAddMatM256` — `/repo/src/WBMatrix/WBMatrix.c:5046-5055`. -/
def MatAddMatM256 (Mat1 Mat2 Mat : M256) : C M256 :=
  forUp 0 256 Mat fun i Mat => do
    let Mat ← wr2 Mat i 0 ((← rd2 Mat1 i 0) ^^^ (← rd2 Mat2 i 0))
    let Mat ← wr2 Mat i 1 ((← rd2 Mat1 i 1) ^^^ (← rd2 Mat2 i 1))
    let Mat ← wr2 Mat i 2 ((← rd2 Mat1 i 2) ^^^ (← rd2 Mat2 i 2))
    let Mat ← wr2 Mat i 3 ((← rd2 Mat1 i 3) ^^^ (← rd2 Mat2 i 3))
    pure Mat

/-- `MatMulMatM256` — `/repo/src/WBMatrix/WBMatrix.c:5149-5191`. -/
def MatMulMatM256 (env : Env) (Mat1 Mat2 Mat : M256) : C M256 := do
  let Mat ← initM256 Mat
  let Mat2_trans ← MattransM256 env Mat2 (env.junkArr2 64 4 256)
  let s ← forUp 0 256 (Mat, env.junkArr 64 4) fun i s => do
    let s ← forUp 0 64 s fun j (Mat, temp) => do
      let temp ← wr temp 0 ((← rd2 Mat1 i 0) &&& (← rd2 Mat2_trans j 0))
      let temp ← wr temp 1 ((← rd2 Mat1 i 1) &&& (← rd2 Mat2_trans j 1))
      let temp ← wr temp 2 ((← rd2 Mat1 i 2) &&& (← rd2 Mat2_trans j 2))
      let temp ← wr temp 3 ((← rd2 Mat1 i 3) &&& (← rd2 Mat2_trans j 3))
      if (← xorU256 env temp) != 0 then
        let Mat ← wr2 Mat i 0 ((← rd2 Mat i 0) ^^^ (← rd idM64 j))
        pure (Mat, temp)
      else pure (Mat, temp)
    let s ← forUp 64 128 s fun j (Mat, temp) => do
      let temp ← wr temp 0 ((← rd2 Mat1 i 0) &&& (← rd2 Mat2_trans j 0))
      let temp ← wr temp 1 ((← rd2 Mat1 i 1) &&& (← rd2 Mat2_trans j 1))
      let temp ← wr temp 2 ((← rd2 Mat1 i 2) &&& (← rd2 Mat2_trans j 2))
      let temp ← wr temp 3 ((← rd2 Mat1 i 3) &&& (← rd2 Mat2_trans j 3))
      if (← xorU256 env temp) != 0 then
        let Mat ← wr2 Mat i 1 ((← rd2 Mat i 1) ^^^ (← rd idM64 (j - 64)))
        pure (Mat, temp)
      else pure (Mat, temp)
    let s ← forUp 128 192 s fun j (Mat, temp) => do
      let temp ← wr temp 0 ((← rd2 Mat1 i 0) &&& (← rd2 Mat2_trans j 0))
      let temp ← wr temp 1 ((← rd2 Mat1 i 1) &&& (← rd2 Mat2_trans j 1))
      let temp ← wr temp 2 ((← rd2 Mat1 i 2) &&& (← rd2 Mat2_trans j 2))
      let temp ← wr temp 3 ((← rd2 Mat1 i 3) &&& (← rd2 Mat2_trans j 3))
      if (← xorU256 env temp) != 0 then
        let Mat ← wr2 Mat i 2 ((← rd2 Mat i 2) ^^^ (← rd idM64 (j - 128)))
        pure (Mat, temp)
      else pure (Mat, temp)
    let s ← forUp 192 256 s fun j (Mat, temp) => do
      let temp ← wr temp 0 ((← rd2 Mat1 i 0) &&& (← rd2 Mat2_trans j 0))
      let temp ← wr temp 1 ((← rd2 Mat1 i 1) &&& (← rd2 Mat2_trans j 1))
      let temp ← wr temp 2 ((← rd2 Mat1 i 2) &&& (← rd2 Mat2_trans j 2))
      let temp ← wr temp 3 ((← rd2 Mat1 i 3) &&& (← rd2 Mat2_trans j 3))
      if (← xorU256 env temp) != 0 then
        let Mat ← wr2 Mat i 3 ((← rd2 Mat i 3) ^^^ (← rd idM64 (j - 192)))
        pure (Mat, temp)
      else pure (Mat, temp)
    pure s
  pure s.1

/-- `genMatpairM256` — `/repo/src/WBMatrix/WBMatrix.c:3564-4339`. `Mat` and `Mat_inv` are assumed to point to different objects. The unused local `q` is omitted. -/
def genMatpairM256 (env : Env) (Mat Mat_inv : M256) : CM (M256 × M256) := do
  reseed
  let Mat ← liftC (identityM256 Mat)
  let Mat_inv ← liftC (identityM256 Mat_inv)
  let tempMat ← randM256 env (env.junkArr2 64 4 256)
  let resultMat ← liftC (copyM256 tempMat (env.junkArr2 64 4 256))
  let s : GenSt M256 65536 :=
    { tempMat, Mat_inv, trail := env.junkArr2 8 3 65536, times := 0, invertible := true }
  let s ← forUp 0 64 s fun i s => do
    if ← liftC (hasBit2 s.tempMat i 0 idM64 i) then
      liftC <| forUp (i + 1) 256 s fun j s => do
        if ← hasBit2 s.tempMat j 0 idM64 i then
          let tempMat ← xorWords [0, 1, 2, 3] s.tempMat j i
          let Mat_inv ← xorWords [0, 1, 2, 3] s.Mat_inv j i
          GenSt.record { s with tempMat, Mat_inv } 1 j i
        else pure s
    else
      let (s, flag) ← liftC <| forBrk (i + 1) 256 (s, true) fun j (s, flag) => do
        if ← hasBit2 s.tempMat j 0 idM64 i then
          let tempMat ← swapWords [0, 1, 2, 3] s.tempMat i j
          let Mat_inv ← swapWords [0, 1, 2, 3] s.Mat_inv i j
          let s ← GenSt.record { s with tempMat, Mat_inv } 0 j i
          pure (.stop (s, false))
        else pure (.next (s, flag))
      if flag then
        let s := { s with invertible := false }
        let r ← cus_random
        let s ← liftC do
          let p := i + 1 + (← umod r (BitVec.ofNat 32 (255 - i))).toNat
          let tempMat ← swapWords [0, 1, 2, 3] s.tempMat p i
          let Mat_inv ← swapWords [0, 1, 2, 3] s.Mat_inv p i
          GenSt.record { s with tempMat, Mat_inv } 0 p i
        forUp (i + 1) 256 s fun t s => do
          let r ← cus_random
          liftC do
            if (← umod r 2) != 0 then
              let tempMat ← xorWords [0, 1, 2, 3] s.tempMat t i
              let Mat_inv ← xorWords [0, 1, 2, 3] s.Mat_inv t i
              GenSt.record { s with tempMat, Mat_inv } 1 t i
            else pure s
      else
        liftC <| forUp (i + 1) 256 s fun k s => do
          if ← hasBit2 s.tempMat k 0 idM64 i then
            let tempMat ← xorWords [0, 1, 2, 3] s.tempMat k i
            let Mat_inv ← xorWords [0, 1, 2, 3] s.Mat_inv k i
            GenSt.record { s with tempMat, Mat_inv } 1 k i
          else pure s
  let s ← forUp 64 128 s fun i s => do
    if ← liftC (hasBit2 s.tempMat i 1 idM64 (i - 64)) then
      liftC <| forUp (i + 1) 256 s fun j s => do
        if ← hasBit2 s.tempMat j 1 idM64 (i - 64) then
          let tempMat ← xorWords [1, 2, 3] s.tempMat j i
          let Mat_inv ← xorWords [0, 1, 2, 3] s.Mat_inv j i
          GenSt.record { s with tempMat, Mat_inv } 1 j i
        else pure s
    else
      let (s, flag) ← liftC <| forBrk (i + 1) 256 (s, true) fun j (s, flag) => do
        if ← hasBit2 s.tempMat j 1 idM64 (i - 64) then
          let tempMat ← swapWords [1, 2, 3] s.tempMat i j
          let Mat_inv ← swapWords [0, 1, 2, 3] s.Mat_inv i j
          let s ← GenSt.record { s with tempMat, Mat_inv } 0 j i
          pure (.stop (s, false))
        else pure (.next (s, flag))
      if flag then
        let s := { s with invertible := false }
        let r ← cus_random
        let s ← liftC do
          let p := i + 1 + (← umod r (BitVec.ofNat 32 (255 - i))).toNat
          let tempMat ← swapWords [1, 2, 3] s.tempMat p i
          let Mat_inv ← swapWords [0, 1, 2, 3] s.Mat_inv p i
          GenSt.record { s with tempMat, Mat_inv } 0 p i
        forUp (i + 1) 256 s fun t s => do
          let r ← cus_random
          liftC do
            if (← umod r 2) != 0 then
              let tempMat ← xorWords [1, 2, 3] s.tempMat t i
              let Mat_inv ← xorWords [0, 1, 2, 3] s.Mat_inv t i
              GenSt.record { s with tempMat, Mat_inv } 1 t i
            else pure s
      else
        liftC <| forUp (i + 1) 256 s fun k s => do
          if ← hasBit2 s.tempMat k 1 idM64 (i - 64) then
            let tempMat ← xorWords [1, 2, 3] s.tempMat k i
            let Mat_inv ← xorWords [0, 1, 2, 3] s.Mat_inv k i
            GenSt.record { s with tempMat, Mat_inv } 1 k i
          else pure s
  let s ← forUp 128 192 s fun i s => do
    if ← liftC (hasBit2 s.tempMat i 2 idM64 (i - 128)) then
      liftC <| forUp (i + 1) 256 s fun j s => do
        if ← hasBit2 s.tempMat j 2 idM64 (i - 128) then
          let tempMat ← xorWords [2, 3] s.tempMat j i
          let Mat_inv ← xorWords [0, 1, 2, 3] s.Mat_inv j i
          GenSt.record { s with tempMat, Mat_inv } 1 j i
        else pure s
    else
      let (s, flag) ← liftC <| forBrk (i + 1) 256 (s, true) fun j (s, flag) => do
        if ← hasBit2 s.tempMat j 2 idM64 (i - 128) then
          let tempMat ← swapWords [2, 3] s.tempMat i j
          let Mat_inv ← swapWords [0, 1, 2, 3] s.Mat_inv i j
          let s ← GenSt.record { s with tempMat, Mat_inv } 0 j i
          pure (.stop (s, false))
        else pure (.next (s, flag))
      if flag then
        let s := { s with invertible := false }
        let r ← cus_random
        let s ← liftC do
          let p := i + 1 + (← umod r (BitVec.ofNat 32 (255 - i))).toNat
          let tempMat ← swapWords [2, 3] s.tempMat p i
          let Mat_inv ← swapWords [0, 1, 2, 3] s.Mat_inv p i
          GenSt.record { s with tempMat, Mat_inv } 0 p i
        forUp (i + 1) 256 s fun t s => do
          let r ← cus_random
          liftC do
            if (← umod r 2) != 0 then
              let tempMat ← xorWords [2, 3] s.tempMat t i
              let Mat_inv ← xorWords [0, 1, 2, 3] s.Mat_inv t i
              GenSt.record { s with tempMat, Mat_inv } 1 t i
            else pure s
      else
        liftC <| forUp (i + 1) 256 s fun k s => do
          if ← hasBit2 s.tempMat k 2 idM64 (i - 128) then
            let tempMat ← xorWords [2, 3] s.tempMat k i
            let Mat_inv ← xorWords [0, 1, 2, 3] s.Mat_inv k i
            GenSt.record { s with tempMat, Mat_inv } 1 k i
          else pure s
  let s ← forUp 192 256 s fun i s => do
    if ← liftC (hasBit2 s.tempMat i 3 idM64 (i - 192)) then
      liftC <| forUp (i + 1) 256 s fun j s => do
        if ← hasBit2 s.tempMat j 3 idM64 (i - 192) then
          let tempMat ← xorWords [3] s.tempMat j i
          let Mat_inv ← xorWords [0, 1, 2, 3] s.Mat_inv j i
          GenSt.record { s with tempMat, Mat_inv } 1 j i
        else pure s
    else
      let (s, flag) ← liftC <| forBrk (i + 1) 256 (s, true) fun j (s, flag) => do
        if ← hasBit2 s.tempMat j 3 idM64 (i - 192) then
          let tempMat ← swapWords [3] s.tempMat i j
          let Mat_inv ← swapWords [0, 1, 2, 3] s.Mat_inv i j
          let s ← GenSt.record { s with tempMat, Mat_inv } 0 j i
          pure (.stop (s, false))
        else pure (.next (s, flag))
      if flag then
        let s := { s with invertible := false }
        if i < 255 then
          let r ← cus_random
          let s ← liftC do
            let p := i + 1 + (← umod r (BitVec.ofNat 32 (255 - i))).toNat
            let tempMat ← swapWords [3] s.tempMat p i
            let Mat_inv ← swapWords [0, 1, 2, 3] s.Mat_inv p i
            GenSt.record { s with tempMat, Mat_inv } 0 p i
          forUp (i + 1) 256 s fun t s => do
            let r ← cus_random
            liftC do
              if (← umod r 2) != 0 then
                let tempMat ← xorWords [3] s.tempMat t i
                let Mat_inv ← xorWords [0, 1, 2, 3] s.Mat_inv t i
                GenSt.record { s with tempMat, Mat_inv } 1 t i
              else pure s
        else pure s
      else
        liftC <| forUp (i + 1) 256 s fun k s => do
          if ← hasBit2 s.tempMat k 3 idM64 (i - 192) then
            let tempMat ← xorWords [3] s.tempMat k i
            let Mat_inv ← xorWords [0, 1, 2, 3] s.Mat_inv k i
            GenSt.record { s with tempMat, Mat_inv } 1 k i
          else pure s
  liftC do
    if !s.invertible then
      let s ← forDown 256 192 s fun t s =>
        forDown t 0 s fun j s => do
          if ← hasBit2 s.tempMat j 3 idM64 (t - 192) then
            let tempMat ← xorWords [3] s.tempMat j t
            let Mat_inv ← xorWords [0, 1, 2, 3] s.Mat_inv j t
            GenSt.record { s with tempMat, Mat_inv } 1 j t
          else pure s
      let s ← forDown 192 128 s fun t s =>
        forDown t 0 s fun j s => do
          if ← hasBit2 s.tempMat j 2 idM64 (t - 128) then
            let tempMat ← xorWords [2] s.tempMat j t
            let Mat_inv ← xorWords [0, 1, 2, 3] s.Mat_inv j t
            GenSt.record { s with tempMat, Mat_inv } 1 j t
          else pure s
      let s ← forDown 128 64 s fun t s =>
        forDown t 0 s fun j s => do
          if ← hasBit2 s.tempMat j 1 idM64 (t - 64) then
            let tempMat ← xorWords [1] s.tempMat j t
            let Mat_inv ← xorWords [0, 1, 2, 3] s.Mat_inv j t
            GenSt.record { s with tempMat, Mat_inv } 1 j t
          else pure s
      let s ← forDown 64 0 s fun t s =>
        forDown t 0 s fun j s => do
          if ← hasBit2 s.tempMat j 0 idM64 t then
            let tempMat ← xorWords [0] s.tempMat j t
            let Mat_inv ← xorWords [0, 1, 2, 3] s.Mat_inv j t
            GenSt.record { s with tempMat, Mat_inv } 1 j t
          else pure s
      let Mat ← forDown s.times 0 Mat fun j Mat => do
        if (← rd2 s.trail j 0) != 0 then
          xorWords [0, 1, 2, 3] Mat (← rd2 s.trail j 1).toNat (← rd2 s.trail j 2).toNat
        else
          swapWords [0, 1, 2, 3] Mat (← rd2 s.trail j 1).toNat (← rd2 s.trail j 2).toNat
      pure (Mat, s.Mat_inv)
    else
      let s := (s.tempMat, s.Mat_inv)
      let s ← forDown 256 192 s fun i s =>
        forDown i 0 s fun j (tempMat, Mat_inv) => do
          if ← hasBit2 tempMat j 3 idM64 (i - 192) then
            let tempMat ← xorWords [3] tempMat j i
            let Mat_inv ← xorWords [0, 1, 2, 3] Mat_inv j i
            pure (tempMat, Mat_inv)
          else pure (tempMat, Mat_inv)
      let s ← forDown 192 128 s fun i s =>
        forDown i 0 s fun j (tempMat, Mat_inv) => do
          if ← hasBit2 tempMat j 2 idM64 (i - 128) then
            let tempMat ← xorWords [2] tempMat j i
            let Mat_inv ← xorWords [0, 1, 2, 3] Mat_inv j i
            pure (tempMat, Mat_inv)
          else pure (tempMat, Mat_inv)
      let s ← forDown 128 64 s fun i s =>
        forDown i 0 s fun j (tempMat, Mat_inv) => do
          if ← hasBit2 tempMat j 1 idM64 (i - 64) then
            let tempMat ← xorWords [1] tempMat j i
            let Mat_inv ← xorWords [0, 1, 2, 3] Mat_inv j i
            pure (tempMat, Mat_inv)
          else pure (tempMat, Mat_inv)
      let s ← forDown 64 0 s fun i s =>
        forDown i 0 s fun j (tempMat, Mat_inv) => do
          if ← hasBit2 tempMat j 0 idM64 i then
            let tempMat ← xorWords [0] tempMat j i
            let Mat_inv ← xorWords [0, 1, 2, 3] Mat_inv j i
            pure (tempMat, Mat_inv)
          else pure (tempMat, Mat_inv)
      let Mat ← copyM256 resultMat Mat
      pure (Mat, s.2)

end WB
