import Verif.Model.M4
import Verif.Model.M8
import Verif.Model.M16
import Verif.Model.M32
import Verif.Model.M64
import Verif.Model.M128

/-!
# The older library bundled with the demos

Version 3.1.1, `/repo/test/WBSM4/WBMatrix/src/WBMatrix` (the copy in `/repo/test/WBAES` has the same text up to white
space).  Only the functions whose text differs from the current version by more than the place where loop variables are
declared; `random.c` is the same file.  The other functions share the definitions of the current library.
-/
namespace WB.old

/-- `/repo/test/WBSM4/WBMatrix/src/WBMatrix/WBMatrix.c:376-388` -/
def isequalM4 (Mat1 Mat2 : M4) : C Int :=
  forBrk 0 4 (1 : Int) fun i flag => do
    if (← rd Mat1 i) != (← rd Mat2 i) then pure (.stop 0) else pure (.next flag)

/-- `/repo/test/WBSM4/WBMatrix/src/WBMatrix/WBMatrix.c:459-464` -/
def isequalV4 (Vec1 Vec2 : V4) : C Int := do
  let flag := 1
  let flag := if Vec1 != Vec2 then 0 else flag
  pure flag

/-- `/repo/test/WBSM4/WBMatrix/src/WBMatrix/WBMatrix.c:3213-3223` -/
def MattransM4 (Mat Mat_trans : M4) : C M4 := do
  let Mat_trans ← initM4 Mat_trans
  forUp 0 4 Mat_trans fun i Mat_trans =>
    forUp 0 4 Mat_trans fun j Mat_trans => do
      if ((← rd Mat i) &&& (← rd idM4 j)) != 0 then
        wr Mat_trans j ((← rd Mat_trans j) ^^^ (← rd idM4 i))
      else pure Mat_trans

/-- `/repo/test/WBSM4/WBMatrix/src/WBMatrix/WBMatrix.c:3331-3343` -/
def MatMulMatM4 (env : Env) (Mat1 Mat2 Mat : M4) : C M4 := do
  let Mat ← initM4 Mat
  let Mat2_trans ← old.MattransM4 Mat2 (env.junkArr 8 4)
  forUp 0 4 Mat fun i Mat =>
    forUp 0 4 Mat fun j Mat => do
      if (← xorU4 env ((← rd Mat1 i) &&& (← rd Mat2_trans j) &&& 0x0f)) != 0 then
        wr Mat i ((← rd Mat i) ^^^ (← rd idM4 j))
      else pure Mat

/-- `/repo/test/WBSM4/WBMatrix/src/WBMatrix/WBMatrix.c:1662-1817`. `Mat` and `Mat_inv` are assumed to point to different objects. -/
def genMatpairM4 (env : Env) (Mat Mat_inv : M4) : CM (M4 × M4) := do
  let Mat ← liftC (identityM4 Mat)
  let Mat_inv ← liftC (identityM4 Mat_inv)
  reseed
  let tempMat ← randM4 (env.junkArr 8 4)
  let resultMat ← liftC (copyM4 tempMat (env.junkArr 8 4))
  let s : GenSt M4 16 :=
    { tempMat, Mat_inv, trail := env.junkArr2 8 3 16, times := 0, invertible := true }
  let s ← forUp 0 4 s fun i s => do
    if ← liftC (hasBit s.tempMat i idM4 i) then
      liftC <| forUp (i + 1) 4 s fun j s => do
        if ← hasBit s.tempMat j idM4 i then
          let tempMat ← xorRow s.tempMat j i
          let Mat_inv ← xorRow s.Mat_inv j i
          GenSt.record { s with tempMat, Mat_inv } 1 j i
        else pure s
    else
      let (s, flag) ← liftC <| forBrk (i + 1) 4 (s, true) fun j (s, flag) => do
        if ← hasBit s.tempMat j idM4 i then
          let tempMat ← swapRow s.tempMat i j
          let Mat_inv ← swapRow s.Mat_inv i j
          let s ← GenSt.record { s with tempMat, Mat_inv } 0 j i
          pure (.stop (s, false))
        else pure (.next (s, flag))
      if flag then
        let s := { s with invertible := false }
        if i < 3 then
          let r ← cus_random
          let s ← liftC do
            let p := i + 1 + (← umod r (BitVec.ofNat 32 (3 - i))).toNat
            let tempMat ← swapRow s.tempMat p i
            let Mat_inv ← swapRow s.Mat_inv p i
            GenSt.record { s with tempMat, Mat_inv } 0 p i
          forUp (i + 1) 4 s fun t s => do
            let r ← cus_random
            liftC do
              if (← umod r 2) != 0 then
                let tempMat ← xorRow s.tempMat t i
                let Mat_inv ← xorRow s.Mat_inv t i
                GenSt.record { s with tempMat, Mat_inv } 1 t i
              else pure s
        else pure s
      else
        liftC <| forUp (i + 1) 4 s fun k s => do
          if ← hasBit s.tempMat k idM4 i then
            let tempMat ← xorRow s.tempMat k i
            let Mat_inv ← xorRow s.Mat_inv k i
            GenSt.record { s with tempMat, Mat_inv } 1 k i
          else pure s
  liftC do
    if !s.invertible then
      let s ← forDown 4 0 s fun t s =>
        forDown t 0 s fun j s => do
          if ← hasBit s.tempMat j idM4 t then
            let tempMat ← xorRow s.tempMat j t
            let Mat_inv ← xorRow s.Mat_inv j t
            GenSt.record { s with tempMat, Mat_inv } 1 j t
          else pure s
      let Mat ← forDown s.times 0 Mat fun j Mat => do
        if (← rd2 s.trail j 0) != 0 then
          xorRow Mat (← rd2 s.trail j 1).toNat (← rd2 s.trail j 2).toNat
        else
          swapRow Mat (← rd2 s.trail j 1).toNat (← rd2 s.trail j 2).toNat
      pure (Mat, s.Mat_inv)
    else
      let s ← forDown 4 0 (s.tempMat, s.Mat_inv) fun i s =>
        forDown i 0 s fun j (tempMat, Mat_inv) => do
          if ← hasBit tempMat j idM4 i then
            let tempMat ← xorRow tempMat j i
            let Mat_inv ← xorRow Mat_inv j i
            pure (tempMat, Mat_inv)
          else pure (tempMat, Mat_inv)
      let Mat ← copyM4 resultMat Mat
      pure (Mat, s.2)

/-- `/repo/test/WBSM4/WBMatrix/src/WBMatrix/WBMatrix.c:2770-2775` -/
def genaffinepairM4 (env : Env) (aff aff_inv : Aff4) : CM (Aff4 × Aff4) := do
  let (Mat, Mat_inv) ← old.genMatpairM4 env aff.Mat aff_inv.Mat
  let Vec ← randV4 aff.Vec
  let Vec_inv ← liftC (MatMulVecM4 env Mat_inv Vec aff_inv.Vec)
  pure (⟨Mat, Vec⟩, ⟨Mat_inv, Vec_inv⟩)

/-- `/repo/test/WBSM4/WBMatrix/src/WBMatrix/WBMatrix.c:3418-3423` -/
def affinemixM4 (env : Env) (aff preaff_inv mixaff : Aff4) : C Aff4 := do
  let Mat ← old.MatMulMatM4 env aff.Mat preaff_inv.Mat mixaff.Mat
  let Vec ← MatMulVecM4 env aff.Mat preaff_inv.Vec mixaff.Vec
  pure ⟨Mat, Vec ^^^ aff.Vec⟩

/-- `/repo/test/WBSM4/WBMatrix/src/WBMatrix/WBMatrix.c:389-401` -/
def isequalM8 (Mat1 Mat2 : M8) : C Int :=
  forBrk 0 8 (1 : Int) fun i flag => do
    if (← rd Mat1 i) != (← rd Mat2 i) then pure (.stop 0) else pure (.next flag)

/-- `/repo/test/WBSM4/WBMatrix/src/WBMatrix/WBMatrix.c:465-470` -/
def isequalV8 (Vec1 Vec2 : V8) : C Int := do
  let flag := 1
  let flag := if Vec1 != Vec2 then 0 else flag
  pure flag

/-- `/repo/test/WBSM4/WBMatrix/src/WBMatrix/WBMatrix.c:3224-3234` -/
def MattransM8 (Mat Mat_trans : M8) : C M8 := do
  let Mat_trans ← initM8 Mat_trans
  forUp 0 8 Mat_trans fun i Mat_trans =>
    forUp 0 8 Mat_trans fun j Mat_trans => do
      if ((← rd Mat i) &&& (← rd idM8 j)) != 0 then
        wr Mat_trans j ((← rd Mat_trans j) ^^^ (← rd idM8 i))
      else pure Mat_trans

/-- `/repo/test/WBSM4/WBMatrix/src/WBMatrix/WBMatrix.c:3344-3356` -/
def MatMulMatM8 (env : Env) (Mat1 Mat2 Mat : M8) : C M8 := do
  let Mat ← initM8 Mat
  let Mat2_trans ← old.MattransM8 Mat2 (env.junkArr 8 8)
  forUp 0 8 Mat fun i Mat =>
    forUp 0 8 Mat fun j Mat => do
      if (← xorU8 env ((← rd Mat1 i) &&& (← rd Mat2_trans j))) != 0 then
        wr Mat i ((← rd Mat i) ^^^ (← rd idM8 j))
      else pure Mat

/-- `/repo/test/WBSM4/WBMatrix/src/WBMatrix/WBMatrix.c:1818-1973`. `Mat` and `Mat_inv` are assumed to point to different objects. -/
def genMatpairM8 (env : Env) (Mat Mat_inv : M8) : CM (M8 × M8) := do
  let Mat ← liftC (identityM8 Mat)
  let Mat_inv ← liftC (identityM8 Mat_inv)
  reseed
  let tempMat ← randM8 (env.junkArr 8 8)
  let resultMat ← liftC (copyM8 tempMat (env.junkArr 8 8))
  let s : GenSt M8 64 :=
    { tempMat, Mat_inv, trail := env.junkArr2 8 3 64, times := 0, invertible := true }
  let s ← forUp 0 8 s fun i s => do
    if ← liftC (hasBit s.tempMat i idM8 i) then
      liftC <| forUp (i + 1) 8 s fun j s => do
        if ← hasBit s.tempMat j idM8 i then
          let tempMat ← xorRow s.tempMat j i
          let Mat_inv ← xorRow s.Mat_inv j i
          GenSt.record { s with tempMat, Mat_inv } 1 j i
        else pure s
    else
      let (s, flag) ← liftC <| forBrk (i + 1) 8 (s, true) fun j (s, flag) => do
        if ← hasBit s.tempMat j idM8 i then
          let tempMat ← swapRow s.tempMat i j
          let Mat_inv ← swapRow s.Mat_inv i j
          let s ← GenSt.record { s with tempMat, Mat_inv } 0 j i
          pure (.stop (s, false))
        else pure (.next (s, flag))
      if flag then
        let s := { s with invertible := false }
        if i < 7 then
          let r ← cus_random
          let s ← liftC do
            let p := i + 1 + (← umod r (BitVec.ofNat 32 (7 - i))).toNat
            let tempMat ← swapRow s.tempMat p i
            let Mat_inv ← swapRow s.Mat_inv p i
            GenSt.record { s with tempMat, Mat_inv } 0 p i
          forUp (i + 1) 8 s fun t s => do
            let r ← cus_random
            liftC do
              if (← umod r 2) != 0 then
                let tempMat ← xorRow s.tempMat t i
                let Mat_inv ← xorRow s.Mat_inv t i
                GenSt.record { s with tempMat, Mat_inv } 1 t i
              else pure s
        else pure s
      else
        liftC <| forUp (i + 1) 8 s fun k s => do
          if ← hasBit s.tempMat k idM8 i then
            let tempMat ← xorRow s.tempMat k i
            let Mat_inv ← xorRow s.Mat_inv k i
            GenSt.record { s with tempMat, Mat_inv } 1 k i
          else pure s
  liftC do
    if !s.invertible then
      let s ← forDown 8 0 s fun t s =>
        forDown t 0 s fun j s => do
          if ← hasBit s.tempMat j idM8 t then
            let tempMat ← xorRow s.tempMat j t
            let Mat_inv ← xorRow s.Mat_inv j t
            GenSt.record { s with tempMat, Mat_inv } 1 j t
          else pure s
      let Mat ← forDown s.times 0 Mat fun j Mat => do
        if (← rd2 s.trail j 0) != 0 then
          xorRow Mat (← rd2 s.trail j 1).toNat (← rd2 s.trail j 2).toNat
        else
          swapRow Mat (← rd2 s.trail j 1).toNat (← rd2 s.trail j 2).toNat
      pure (Mat, s.Mat_inv)
    else
      let s ← forDown 8 0 (s.tempMat, s.Mat_inv) fun i s =>
        forDown i 0 s fun j (tempMat, Mat_inv) => do
          if ← hasBit tempMat j idM8 i then
            let tempMat ← xorRow tempMat j i
            let Mat_inv ← xorRow Mat_inv j i
            pure (tempMat, Mat_inv)
          else pure (tempMat, Mat_inv)
      let Mat ← copyM8 resultMat Mat
      pure (Mat, s.2)

/-- `/repo/test/WBSM4/WBMatrix/src/WBMatrix/WBMatrix.c:2776-2781` -/
def genaffinepairM8 (env : Env) (aff aff_inv : Aff8) : CM (Aff8 × Aff8) := do
  let (Mat, Mat_inv) ← old.genMatpairM8 env aff.Mat aff_inv.Mat
  let Vec ← randV8 aff.Vec
  let Vec_inv ← liftC (MatMulVecM8 env Mat_inv Vec aff_inv.Vec)
  pure (⟨Mat, Vec⟩, ⟨Mat_inv, Vec_inv⟩)

/-- `/repo/test/WBSM4/WBMatrix/src/WBMatrix/WBMatrix.c:3424-3429` -/
def affinemixM8 (env : Env) (aff preaff_inv mixaff : Aff8) : C Aff8 := do
  let Mat ← old.MatMulMatM8 env aff.Mat preaff_inv.Mat mixaff.Mat
  let Vec ← MatMulVecM8 env aff.Mat preaff_inv.Vec mixaff.Vec
  pure ⟨Mat, Vec ^^^ aff.Vec⟩

/-- `/repo/test/WBSM4/WBMatrix/src/WBMatrix/WBMatrix.c:402-414` -/
def isequalM16 (Mat1 Mat2 : M16) : C Int :=
  forBrk 0 16 (1 : Int) fun i flag => do
    if (← rd Mat1 i) != (← rd Mat2 i) then pure (.stop 0) else pure (.next flag)

/-- `/repo/test/WBSM4/WBMatrix/src/WBMatrix/WBMatrix.c:471-476` -/
def isequalV16 (Vec1 Vec2 : V16) : C Int := do
  let flag := 1
  let flag := if Vec1 != Vec2 then 0 else flag
  pure flag

/-- `/repo/test/WBSM4/WBMatrix/src/WBMatrix/WBMatrix.c:3235-3245` -/
def MattransM16 (Mat Mat_trans : M16) : C M16 := do
  let Mat_trans ← initM16 Mat_trans
  forUp 0 16 Mat_trans fun i Mat_trans =>
    forUp 0 16 Mat_trans fun j Mat_trans => do
      if ((← rd Mat i) &&& (← rd idM16 j)) != 0 then
        wr Mat_trans j ((← rd Mat_trans j) ^^^ (← rd idM16 i))
      else pure Mat_trans

/-- `/repo/test/WBSM4/WBMatrix/src/WBMatrix/WBMatrix.c:3357-3369` -/
def MatMulMatM16 (env : Env) (Mat1 Mat2 Mat : M16) : C M16 := do
  let Mat ← initM16 Mat
  let Mat2_trans ← old.MattransM16 Mat2 (env.junkArr 16 16)
  forUp 0 16 Mat fun i Mat =>
    forUp 0 16 Mat fun j Mat => do
      if (← xorU16 env ((← rd Mat1 i) &&& (← rd Mat2_trans j))) != 0 then
        wr Mat i ((← rd Mat i) ^^^ (← rd idM16 j))
      else pure Mat

/-- `/repo/test/WBSM4/WBMatrix/src/WBMatrix/WBMatrix.c:1974-2129`. `Mat` and `Mat_inv` are assumed to point to different objects. -/
def genMatpairM16 (env : Env) (Mat Mat_inv : M16) : CM (M16 × M16) := do
  let Mat ← liftC (identityM16 Mat)
  let Mat_inv ← liftC (identityM16 Mat_inv)
  reseed
  let tempMat ← randM16 (env.junkArr 16 16)
  let resultMat ← liftC (copyM16 tempMat (env.junkArr 16 16))
  let s : GenSt M16 256 :=
    { tempMat, Mat_inv, trail := env.junkArr2 8 3 256, times := 0, invertible := true }
  let s ← forUp 0 16 s fun i s => do
    if ← liftC (hasBit s.tempMat i idM16 i) then
      liftC <| forUp (i + 1) 16 s fun j s => do
        if ← hasBit s.tempMat j idM16 i then
          let tempMat ← xorRow s.tempMat j i
          let Mat_inv ← xorRow s.Mat_inv j i
          GenSt.record { s with tempMat, Mat_inv } 1 j i
        else pure s
    else
      let (s, flag) ← liftC <| forBrk (i + 1) 16 (s, true) fun j (s, flag) => do
        if ← hasBit s.tempMat j idM16 i then
          let tempMat ← swapRow s.tempMat i j
          let Mat_inv ← swapRow s.Mat_inv i j
          let s ← GenSt.record { s with tempMat, Mat_inv } 0 j i
          pure (.stop (s, false))
        else pure (.next (s, flag))
      if flag then
        let s := { s with invertible := false }
        if i < 15 then
          let r ← cus_random
          let s ← liftC do
            let p := i + 1 + (← umod r (BitVec.ofNat 32 (15 - i))).toNat
            let tempMat ← swapRow s.tempMat p i
            let Mat_inv ← swapRow s.Mat_inv p i
            GenSt.record { s with tempMat, Mat_inv } 0 p i
          forUp (i + 1) 16 s fun t s => do
            let r ← cus_random
            liftC do
              if (← umod r 2) != 0 then
                let tempMat ← xorRow s.tempMat t i
                let Mat_inv ← xorRow s.Mat_inv t i
                GenSt.record { s with tempMat, Mat_inv } 1 t i
              else pure s
        else pure s
      else
        liftC <| forUp (i + 1) 16 s fun k s => do
          if ← hasBit s.tempMat k idM16 i then
            let tempMat ← xorRow s.tempMat k i
            let Mat_inv ← xorRow s.Mat_inv k i
            GenSt.record { s with tempMat, Mat_inv } 1 k i
          else pure s
  liftC do
    if !s.invertible then
      let s ← forDown 16 0 s fun t s =>
        forDown t 0 s fun j s => do
          if ← hasBit s.tempMat j idM16 t then
            let tempMat ← xorRow s.tempMat j t
            let Mat_inv ← xorRow s.Mat_inv j t
            GenSt.record { s with tempMat, Mat_inv } 1 j t
          else pure s
      let Mat ← forDown s.times 0 Mat fun j Mat => do
        if (← rd2 s.trail j 0) != 0 then
          xorRow Mat (← rd2 s.trail j 1).toNat (← rd2 s.trail j 2).toNat
        else
          swapRow Mat (← rd2 s.trail j 1).toNat (← rd2 s.trail j 2).toNat
      pure (Mat, s.Mat_inv)
    else
      let s ← forDown 16 0 (s.tempMat, s.Mat_inv) fun i s =>
        forDown i 0 s fun j (tempMat, Mat_inv) => do
          if ← hasBit tempMat j idM16 i then
            let tempMat ← xorRow tempMat j i
            let Mat_inv ← xorRow Mat_inv j i
            pure (tempMat, Mat_inv)
          else pure (tempMat, Mat_inv)
      let Mat ← copyM16 resultMat Mat
      pure (Mat, s.2)

/-- `/repo/test/WBSM4/WBMatrix/src/WBMatrix/WBMatrix.c:2782-2787` -/
def genaffinepairM16 (env : Env) (aff aff_inv : Aff16) : CM (Aff16 × Aff16) := do
  let (Mat, Mat_inv) ← old.genMatpairM16 env aff.Mat aff_inv.Mat
  let Vec ← randV16 aff.Vec
  let Vec_inv ← liftC (MatMulVecM16 env Mat_inv Vec aff_inv.Vec)
  pure (⟨Mat, Vec⟩, ⟨Mat_inv, Vec_inv⟩)

/-- `/repo/test/WBSM4/WBMatrix/src/WBMatrix/WBMatrix.c:3430-3435` -/
def affinemixM16 (env : Env) (aff preaff_inv mixaff : Aff16) : C Aff16 := do
  let Mat ← old.MatMulMatM16 env aff.Mat preaff_inv.Mat mixaff.Mat
  let Vec ← MatMulVecM16 env aff.Mat preaff_inv.Vec mixaff.Vec
  pure ⟨Mat, Vec ^^^ aff.Vec⟩

/-- `/repo/test/WBSM4/WBMatrix/src/WBMatrix/WBMatrix.c:415-427` -/
def isequalM32 (Mat1 Mat2 : M32) : C Int :=
  forBrk 0 32 (1 : Int) fun i flag => do
    if (← rd Mat1 i) != (← rd Mat2 i) then pure (.stop 0) else pure (.next flag)

/-- `/repo/test/WBSM4/WBMatrix/src/WBMatrix/WBMatrix.c:477-482` -/
def isequalV32 (Vec1 Vec2 : V32) : C Int := do
  let flag := 1
  let flag := if Vec1 != Vec2 then 0 else flag
  pure flag

/-- `/repo/test/WBSM4/WBMatrix/src/WBMatrix/WBMatrix.c:3246-3256` -/
def MattransM32 (Mat Mat_trans : M32) : C M32 := do
  let Mat_trans ← initM32 Mat_trans
  forUp 0 32 Mat_trans fun i Mat_trans =>
    forUp 0 32 Mat_trans fun j Mat_trans => do
      if ((← rd Mat i) &&& (← rd idM32 j)) != 0 then
        wr Mat_trans j ((← rd Mat_trans j) ^^^ (← rd idM32 i))
      else pure Mat_trans

/-- `/repo/test/WBSM4/WBMatrix/src/WBMatrix/WBMatrix.c:3370-3382` -/
def MatMulMatM32 (env : Env) (Mat1 Mat2 Mat : M32) : C M32 := do
  let Mat ← initM32 Mat
  let Mat2_trans ← old.MattransM32 Mat2 (env.junkArr 32 32)
  forUp 0 32 Mat fun i Mat =>
    forUp 0 32 Mat fun j Mat => do
      if (← xorU32 env ((← rd Mat1 i) &&& (← rd Mat2_trans j))) != 0 then
        wr Mat i ((← rd Mat i) ^^^ (← rd idM32 j))
      else pure Mat

/-- `/repo/test/WBSM4/WBMatrix/src/WBMatrix/WBMatrix.c:235-241`; the 32-bit results are converted to `uint16_t` -/
def randV32 (env : Env) (Vec : V32) : CM V32 := do
  reseed
  let r ← cus_random
  let Vec ← liftC (env.stSub Vec 1 (r.setWidth 16))
  let r ← cus_random
  liftC (env.stSub Vec 0 (r.setWidth 16))

/-- `/repo/test/WBSM4/WBMatrix/src/WBMatrix/WBMatrix.c:2130-2285`. `Mat` and `Mat_inv` are assumed to point to different objects. -/
def genMatpairM32 (env : Env) (Mat Mat_inv : M32) : CM (M32 × M32) := do
  let Mat ← liftC (identityM32 Mat)
  let Mat_inv ← liftC (identityM32 Mat_inv)
  reseed
  let tempMat ← randM32 (env.junkArr 32 32)
  let resultMat ← liftC (copyM32 tempMat (env.junkArr 32 32))
  let s : GenSt M32 1024 :=
    { tempMat, Mat_inv, trail := env.junkArr2 8 3 1024, times := 0, invertible := true }
  let s ← forUp 0 32 s fun i s => do
    if ← liftC (hasBit s.tempMat i idM32 i) then
      liftC <| forUp (i + 1) 32 s fun j s => do
        if ← hasBit s.tempMat j idM32 i then
          let tempMat ← xorRow s.tempMat j i
          let Mat_inv ← xorRow s.Mat_inv j i
          GenSt.record { s with tempMat, Mat_inv } 1 j i
        else pure s
    else
      let (s, flag) ← liftC <| forBrk (i + 1) 32 (s, true) fun j (s, flag) => do
        if ← hasBit s.tempMat j idM32 i then
          let tempMat ← swapRow s.tempMat i j
          let Mat_inv ← swapRow s.Mat_inv i j
          let s ← GenSt.record { s with tempMat, Mat_inv } 0 j i
          pure (.stop (s, false))
        else pure (.next (s, flag))
      if flag then
        let s := { s with invertible := false }
        if i < 31 then
          let r ← cus_random
          let s ← liftC do
            let p := i + 1 + (← umod r (BitVec.ofNat 32 (31 - i))).toNat
            let tempMat ← swapRow s.tempMat p i
            let Mat_inv ← swapRow s.Mat_inv p i
            GenSt.record { s with tempMat, Mat_inv } 0 p i
          forUp (i + 1) 32 s fun t s => do
            let r ← cus_random
            liftC do
              if (← umod r 2) != 0 then
                let tempMat ← xorRow s.tempMat t i
                let Mat_inv ← xorRow s.Mat_inv t i
                GenSt.record { s with tempMat, Mat_inv } 1 t i
              else pure s
        else pure s
      else
        liftC <| forUp (i + 1) 32 s fun k s => do
          if ← hasBit s.tempMat k idM32 i then
            let tempMat ← xorRow s.tempMat k i
            let Mat_inv ← xorRow s.Mat_inv k i
            GenSt.record { s with tempMat, Mat_inv } 1 k i
          else pure s
  liftC do
    if !s.invertible then
      let s ← forDown 32 0 s fun t s =>
        forDown t 0 s fun j s => do
          if ← hasBit s.tempMat j idM32 t then
            let tempMat ← xorRow s.tempMat j t
            let Mat_inv ← xorRow s.Mat_inv j t
            GenSt.record { s with tempMat, Mat_inv } 1 j t
          else pure s
      let Mat ← forDown s.times 0 Mat fun j Mat => do
        if (← rd2 s.trail j 0) != 0 then
          xorRow Mat (← rd2 s.trail j 1).toNat (← rd2 s.trail j 2).toNat
        else
          swapRow Mat (← rd2 s.trail j 1).toNat (← rd2 s.trail j 2).toNat
      pure (Mat, s.Mat_inv)
    else
      let s ← forDown 32 0 (s.tempMat, s.Mat_inv) fun i s =>
        forDown i 0 s fun j (tempMat, Mat_inv) => do
          if ← hasBit tempMat j idM32 i then
            let tempMat ← xorRow tempMat j i
            let Mat_inv ← xorRow Mat_inv j i
            pure (tempMat, Mat_inv)
          else pure (tempMat, Mat_inv)
      let Mat ← copyM32 resultMat Mat
      pure (Mat, s.2)

/-- `/repo/test/WBSM4/WBMatrix/src/WBMatrix/WBMatrix.c:2788-2793` -/
def genaffinepairM32 (env : Env) (aff aff_inv : Aff32) : CM (Aff32 × Aff32) := do
  let (Mat, Mat_inv) ← old.genMatpairM32 env aff.Mat aff_inv.Mat
  let Vec ← old.randV32 env aff.Vec
  let Vec_inv ← liftC (MatMulVecM32 env Mat_inv Vec aff_inv.Vec)
  pure (⟨Mat, Vec⟩, ⟨Mat_inv, Vec_inv⟩)

/-- `/repo/test/WBSM4/WBMatrix/src/WBMatrix/WBMatrix.c:3436-3441` -/
def affinemixM32 (env : Env) (aff preaff_inv mixaff : Aff32) : C Aff32 := do
  let Mat ← old.MatMulMatM32 env aff.Mat preaff_inv.Mat mixaff.Mat
  let Vec ← MatMulVecM32 env aff.Mat preaff_inv.Vec mixaff.Vec
  pure ⟨Mat, Vec ^^^ aff.Vec⟩

/-- `/repo/test/WBSM4/WBMatrix/src/WBMatrix/WBMatrix.c:428-440` -/
def isequalM64 (Mat1 Mat2 : M64) : C Int :=
  forBrk 0 64 (1 : Int) fun i flag => do
    if (← rd Mat1 i) != (← rd Mat2 i) then pure (.stop 0) else pure (.next flag)

/-- `/repo/test/WBSM4/WBMatrix/src/WBMatrix/WBMatrix.c:483-488` -/
def isequalV64 (Vec1 Vec2 : V64) : C Int := do
  let flag := 1
  let flag := if Vec1 != Vec2 then 0 else flag
  pure flag

/-- `/repo/test/WBSM4/WBMatrix/src/WBMatrix/WBMatrix.c:3257-3267` -/
def MattransM64 (Mat Mat_trans : M64) : C M64 := do
  let Mat_trans ← initM64 Mat_trans
  forUp 0 64 Mat_trans fun i Mat_trans =>
    forUp 0 64 Mat_trans fun j Mat_trans => do
      if ((← rd Mat i) &&& (← rd idM64 j)) != 0 then
        wr Mat_trans j ((← rd Mat_trans j) ^^^ (← rd idM64 i))
      else pure Mat_trans

/-- `/repo/test/WBSM4/WBMatrix/src/WBMatrix/WBMatrix.c:3383-3395` -/
def MatMulMatM64 (env : Env) (Mat1 Mat2 Mat : M64) : C M64 := do
  let Mat ← initM64 Mat
  let Mat2_trans ← old.MattransM64 Mat2 (env.junkArr 64 64)
  forUp 0 64 Mat fun i Mat =>
    forUp 0 64 Mat fun j Mat => do
      if (← xorU64 env ((← rd Mat1 i) &&& (← rd Mat2_trans j))) != 0 then
        wr Mat i ((← rd Mat i) ^^^ (← rd idM64 j))
      else pure Mat

/-- `/repo/test/WBSM4/WBMatrix/src/WBMatrix/WBMatrix.c:242-250` -/
def randV64 (env : Env) (Vec : V64) : CM V64 := do
  reseed
  let r ← cus_random
  let Vec ← liftC (env.stSub Vec 3 (r.setWidth 16))
  let r ← cus_random
  let Vec ← liftC (env.stSub Vec 2 (r.setWidth 16))
  let r ← cus_random
  let Vec ← liftC (env.stSub Vec 1 (r.setWidth 16))
  let r ← cus_random
  liftC (env.stSub Vec 0 (r.setWidth 16))

/-- `/repo/test/WBSM4/WBMatrix/src/WBMatrix/WBMatrix.c:2286-2441`. `Mat` and `Mat_inv` are assumed to point to different objects. -/
def genMatpairM64 (env : Env) (Mat Mat_inv : M64) : CM (M64 × M64) := do
  let Mat ← liftC (identityM64 Mat)
  let Mat_inv ← liftC (identityM64 Mat_inv)
  reseed
  let tempMat ← randM64 env (env.junkArr 64 64)
  let resultMat ← liftC (copyM64 tempMat (env.junkArr 64 64))
  let s : GenSt M64 4096 :=
    { tempMat, Mat_inv, trail := env.junkArr2 8 3 4096, times := 0, invertible := true }
  let s ← forUp 0 64 s fun i s => do
    if ← liftC (hasBit s.tempMat i idM64 i) then
      liftC <| forUp (i + 1) 64 s fun j s => do
        if ← hasBit s.tempMat j idM64 i then
          let tempMat ← xorRow s.tempMat j i
          let Mat_inv ← xorRow s.Mat_inv j i
          GenSt.record { s with tempMat, Mat_inv } 1 j i
        else pure s
    else
      let (s, flag) ← liftC <| forBrk (i + 1) 64 (s, true) fun j (s, flag) => do
        if ← hasBit s.tempMat j idM64 i then
          let tempMat ← swapRow s.tempMat i j
          let Mat_inv ← swapRow s.Mat_inv i j
          let s ← GenSt.record { s with tempMat, Mat_inv } 0 j i
          pure (.stop (s, false))
        else pure (.next (s, flag))
      if flag then
        let s := { s with invertible := false }
        if i < 63 then
          let r ← cus_random
          let s ← liftC do
            let p := i + 1 + (← umod r (BitVec.ofNat 32 (63 - i))).toNat
            let tempMat ← swapRow s.tempMat p i
            let Mat_inv ← swapRow s.Mat_inv p i
            GenSt.record { s with tempMat, Mat_inv } 0 p i
          forUp (i + 1) 64 s fun t s => do
            let r ← cus_random
            liftC do
              if (← umod r 2) != 0 then
                let tempMat ← xorRow s.tempMat t i
                let Mat_inv ← xorRow s.Mat_inv t i
                GenSt.record { s with tempMat, Mat_inv } 1 t i
              else pure s
        else pure s
      else
        liftC <| forUp (i + 1) 64 s fun k s => do
          if ← hasBit s.tempMat k idM64 i then
            let tempMat ← xorRow s.tempMat k i
            let Mat_inv ← xorRow s.Mat_inv k i
            GenSt.record { s with tempMat, Mat_inv } 1 k i
          else pure s
  liftC do
    if !s.invertible then
      let s ← forDown 64 0 s fun t s =>
        forDown t 0 s fun j s => do
          if ← hasBit s.tempMat j idM64 t then
            let tempMat ← xorRow s.tempMat j t
            let Mat_inv ← xorRow s.Mat_inv j t
            GenSt.record { s with tempMat, Mat_inv } 1 j t
          else pure s
      let Mat ← forDown s.times 0 Mat fun j Mat => do
        if (← rd2 s.trail j 0) != 0 then
          xorRow Mat (← rd2 s.trail j 1).toNat (← rd2 s.trail j 2).toNat
        else
          swapRow Mat (← rd2 s.trail j 1).toNat (← rd2 s.trail j 2).toNat
      pure (Mat, s.Mat_inv)
    else
      let s ← forDown 64 0 (s.tempMat, s.Mat_inv) fun i s =>
        forDown i 0 s fun j (tempMat, Mat_inv) => do
          if ← hasBit tempMat j idM64 i then
            let tempMat ← xorRow tempMat j i
            let Mat_inv ← xorRow Mat_inv j i
            pure (tempMat, Mat_inv)
          else pure (tempMat, Mat_inv)
      let Mat ← copyM64 resultMat Mat
      pure (Mat, s.2)

/-- `/repo/test/WBSM4/WBMatrix/src/WBMatrix/WBMatrix.c:2794-2799` -/
def genaffinepairM64 (env : Env) (aff aff_inv : Aff64) : CM (Aff64 × Aff64) := do
  let (Mat, Mat_inv) ← old.genMatpairM64 env aff.Mat aff_inv.Mat
  let Vec ← old.randV64 env aff.Vec
  let Vec_inv ← liftC (MatMulVecM64 env Mat_inv Vec aff_inv.Vec)
  pure (⟨Mat, Vec⟩, ⟨Mat_inv, Vec_inv⟩)

/-- `/repo/test/WBSM4/WBMatrix/src/WBMatrix/WBMatrix.c:3442-3447` -/
def affinemixM64 (env : Env) (aff preaff_inv mixaff : Aff64) : C Aff64 := do
  let Mat ← old.MatMulMatM64 env aff.Mat preaff_inv.Mat mixaff.Mat
  let Vec ← MatMulVecM64 env aff.Mat preaff_inv.Vec mixaff.Vec
  pure ⟨Mat, Vec ^^^ aff.Vec⟩

/-- `/repo/test/WBSM4/WBMatrix/src/WBMatrix/WBMatrix.c:441-458` -/
def isequalM128 (Mat1 Mat2 : M128) : C Int :=
  forBrk 0 128 (1 : Int) fun i flag => do
    if (← rd2 Mat1 i 0) != (← rd2 Mat2 i 0) then return .stop 0
    if (← rd2 Mat1 i 1) != (← rd2 Mat2 i 1) then return .stop 0
    return .next flag

/-- `/repo/test/WBSM4/WBMatrix/src/WBMatrix/WBMatrix.c:489-495` -/
def isequalV128 (Vec1 Vec2 : V128) : C Int := do
  let flag := 1
  let flag := if (← rd Vec1 0) != (← rd Vec2 0) then 0 else flag
  let flag := if (← rd Vec1 1) != (← rd Vec2 1) then 0 else flag
  pure flag

/-- The statement `if(Mat.M[i][k] & idM64[j]) (*Mat_trans).M[r][p] ^= idM64[q];` -/
def flipIf (Mat : M128) (i k j : Nat) (Mat_trans : M128) (r p q : Nat) : C M128 := do
  if ((← rd2 Mat i k) &&& (← rd idM64 j)) != 0 then
    wr2 Mat_trans r p ((← rd2 Mat_trans r p) ^^^ (← rd idM64 q))
  else pure Mat_trans

/-- `/repo/test/WBSM4/WBMatrix/src/WBMatrix/WBMatrix.c:3268-3287` -/
def MattransM128 (Mat Mat_trans : M128) : C M128 := do
  let Mat_trans ← initM128 Mat_trans
  let Mat_trans ← forUp 0 64 Mat_trans fun i Mat_trans =>
    forUp 0 64 Mat_trans fun j Mat_trans => do
      let Mat_trans ← flipIf Mat i 0 j Mat_trans j 0 i
      flipIf Mat i 1 j Mat_trans (j + 64) 0 i
  forUp 64 128 Mat_trans fun i Mat_trans =>
    forUp 0 64 Mat_trans fun j Mat_trans => do
      let Mat_trans ← flipIf Mat i 0 j Mat_trans j 1 (i - 64)
      flipIf Mat i 1 j Mat_trans (j + 64) 1 (i - 64)

/-- `/repo/test/WBSM4/WBMatrix/src/WBMatrix/WBMatrix.c:3396-3417` -/
def MatMulMatM128 (env : Env) (Mat1 Mat2 Mat : M128) : C M128 := do
  let Mat ← initM128 Mat
  let Mat2_trans ← old.MattransM128 Mat2 (env.junkArr2 64 2 128)
  let s ← forUp 0 128 (Mat, env.junkArr 64 2) fun i s => do
    let s ← forUp 0 64 s fun j (Mat, temp) => do
      let temp ← wr temp 0 ((← rd2 Mat1 i 0) &&& (← rd2 Mat2_trans j 0))
      let temp ← wr temp 1 ((← rd2 Mat1 i 1) &&& (← rd2 Mat2_trans j 1))
      if (← xorU128 env temp) != 0 then
        let Mat ← wr2 Mat i 0 ((← rd2 Mat i 0) ^^^ (← rd idM64 j))
        pure (Mat, temp)
      else pure (Mat, temp)
    let s ← forUp 64 128 s fun j (Mat, temp) => do
      let temp ← wr temp 0 ((← rd2 Mat1 i 0) &&& (← rd2 Mat2_trans j 0))
      let temp ← wr temp 1 ((← rd2 Mat1 i 1) &&& (← rd2 Mat2_trans j 1))
      if (← xorU128 env temp) != 0 then
        let Mat ← wr2 Mat i 1 ((← rd2 Mat i 1) ^^^ (← rd idM64 (j - 64)))
        pure (Mat, temp)
      else pure (Mat, temp)
    pure s
  pure s.1

/-- `/repo/test/WBSM4/WBMatrix/src/WBMatrix/WBMatrix.c:251-264` -/
def randV128 (env : Env) (Vec : V128) : CM V128 := do
  reseed
  let r ← cus_random
  let Vec ← liftC do wr Vec 0 (← env.stSub (← rd Vec 0) 3 (r.setWidth 16))
  let r ← cus_random
  let Vec ← liftC do wr Vec 0 (← env.stSub (← rd Vec 0) 2 (r.setWidth 16))
  let r ← cus_random
  let Vec ← liftC do wr Vec 0 (← env.stSub (← rd Vec 0) 1 (r.setWidth 16))
  let r ← cus_random
  let Vec ← liftC do wr Vec 0 (← env.stSub (← rd Vec 0) 0 (r.setWidth 16))
  let r ← cus_random
  let Vec ← liftC do wr Vec 1 (← env.stSub (← rd Vec 1) 3 (r.setWidth 16))
  let r ← cus_random
  let Vec ← liftC do wr Vec 1 (← env.stSub (← rd Vec 1) 2 (r.setWidth 16))
  let r ← cus_random
  let Vec ← liftC do wr Vec 1 (← env.stSub (← rd Vec 1) 1 (r.setWidth 16))
  let r ← cus_random
  liftC do wr Vec 1 (← env.stSub (← rd Vec 1) 0 (r.setWidth 16))

/-- `/repo/test/WBSM4/WBMatrix/src/WBMatrix/WBMatrix.c:2442-2769`. `Mat` and `Mat_inv` are assumed to point to different objects. -/
def genMatpairM128 (env : Env) (Mat Mat_inv : M128) : CM (M128 × M128) := do
  let Mat ← liftC (identityM128 Mat)
  let Mat_inv ← liftC (identityM128 Mat_inv)
  reseed
  let tempMat ← randM128 env (env.junkArr2 64 2 128)
  let resultMat ← liftC (copyM128 tempMat (env.junkArr2 64 2 128))
  let s : GenSt M128 16384 :=
    { tempMat, Mat_inv, trail := env.junkArr2 8 3 16384, times := 0, invertible := true }
  let s ← forUp 0 64 s fun i s => do
    if ← liftC (hasBit2 s.tempMat i 0 idM64 i) then
      liftC <| forUp (i + 1) 128 s fun j s => do
        if ← hasBit2 s.tempMat j 0 idM64 i then
          let tempMat ← xorWords [0, 1] s.tempMat j i
          let Mat_inv ← xorWords [0, 1] s.Mat_inv j i
          GenSt.record { s with tempMat, Mat_inv } 1 j i
        else pure s
    else
      let (s, flag) ← liftC <| forBrk (i + 1) 128 (s, true) fun j (s, flag) => do
        if ← hasBit2 s.tempMat j 0 idM64 i then
          let tempMat ← swapWords [0, 1] s.tempMat i j
          let Mat_inv ← swapWords [0, 1] s.Mat_inv i j
          let s ← GenSt.record { s with tempMat, Mat_inv } 0 j i
          pure (.stop (s, false))
        else pure (.next (s, flag))
      if flag then
        let s := { s with invertible := false }
        let r ← cus_random
        let s ← liftC do
          let p := i + 1 + (← umod r (BitVec.ofNat 32 (127 - i))).toNat
          let tempMat ← swapWords [0, 1] s.tempMat p i
          let Mat_inv ← swapWords [0, 1] s.Mat_inv p i
          GenSt.record { s with tempMat, Mat_inv } 0 p i
        forUp (i + 1) 128 s fun t s => do
          let r ← cus_random
          liftC do
            if (← umod r 2) != 0 then
              let tempMat ← xorWords [0, 1] s.tempMat t i
              let Mat_inv ← xorWords [0, 1] s.Mat_inv t i
              GenSt.record { s with tempMat, Mat_inv } 1 t i
            else pure s
      else
        liftC <| forUp (i + 1) 128 s fun k s => do
          if ← hasBit2 s.tempMat k 0 idM64 i then
            let tempMat ← xorWords [0, 1] s.tempMat k i
            let Mat_inv ← xorWords [0, 1] s.Mat_inv k i
            GenSt.record { s with tempMat, Mat_inv } 1 k i
          else pure s
  let s ← forUp 64 128 s fun i s => do
    if ← liftC (hasBit2 s.tempMat i 1 idM64 (i - 64)) then
      liftC <| forUp (i + 1) 128 s fun j s => do
        if ← hasBit2 s.tempMat j 1 idM64 (i - 64) then
          let tempMat ← xorWords [1] s.tempMat j i
          let Mat_inv ← xorWords [0, 1] s.Mat_inv j i
          GenSt.record { s with tempMat, Mat_inv } 1 j i
        else pure s
    else
      let (s, flag) ← liftC <| forBrk (i + 1) 128 (s, true) fun j (s, flag) => do
        if ← hasBit2 s.tempMat j 1 idM64 (i - 64) then
          let tempMat ← swapWords [1] s.tempMat i j
          let Mat_inv ← swapWords [0, 1] s.Mat_inv i j
          let s ← GenSt.record { s with tempMat, Mat_inv } 0 j i
          pure (.stop (s, false))
        else pure (.next (s, flag))
      if flag then
        let s := { s with invertible := false }
        if i < 127 then
          let r ← cus_random
          let s ← liftC do
            let p := i + 1 + (← umod r (BitVec.ofNat 32 (127 - i))).toNat
            let tempMat ← swapWords [1] s.tempMat p i
            let Mat_inv ← swapWords [0, 1] s.Mat_inv p i
            GenSt.record { s with tempMat, Mat_inv } 0 p i
          forUp (i + 1) 128 s fun t s => do
            let r ← cus_random
            liftC do
              if (← umod r 2) != 0 then
                let tempMat ← xorWords [1] s.tempMat t i
                let Mat_inv ← xorWords [0, 1] s.Mat_inv t i
                GenSt.record { s with tempMat, Mat_inv } 1 t i
              else pure s
        else pure s
      else
        liftC <| forUp (i + 1) 128 s fun k s => do
          if ← hasBit2 s.tempMat k 1 idM64 (i - 64) then
            let tempMat ← xorWords [1] s.tempMat k i
            let Mat_inv ← xorWords [0, 1] s.Mat_inv k i
            GenSt.record { s with tempMat, Mat_inv } 1 k i
          else pure s
  liftC do
    if !s.invertible then
      let s ← forDown 128 64 s fun t s =>
        forDown t 0 s fun j s => do
          if ← hasBit2 s.tempMat j 1 idM64 (t - 64) then
            let tempMat ← xorWords [1] s.tempMat j t
            let Mat_inv ← xorWords [0, 1] s.Mat_inv j t
            GenSt.record { s with tempMat, Mat_inv } 1 j t
          else pure s
      let s ← forDown 64 0 s fun t s =>
        forDown t 0 s fun j s => do
          if ← hasBit2 s.tempMat j 0 idM64 t then
            let tempMat ← xorWords [0] s.tempMat j t
            let Mat_inv ← xorWords [0, 1] s.Mat_inv j t
            GenSt.record { s with tempMat, Mat_inv } 1 j t
          else pure s
      let Mat ← forDown s.times 0 Mat fun j Mat => do
        if (← rd2 s.trail j 0) != 0 then
          xorWords [0, 1] Mat (← rd2 s.trail j 1).toNat (← rd2 s.trail j 2).toNat
        else
          swapWords [0, 1] Mat (← rd2 s.trail j 1).toNat (← rd2 s.trail j 2).toNat
      pure (Mat, s.Mat_inv)
    else
      let s := (s.tempMat, s.Mat_inv)
      let s ← forDown 128 64 s fun i s =>
        forDown i 0 s fun j (tempMat, Mat_inv) => do
          if ← hasBit2 tempMat j 1 idM64 (i - 64) then
            let tempMat ← xorWords [1] tempMat j i
            let Mat_inv ← xorWords [0, 1] Mat_inv j i
            pure (tempMat, Mat_inv)
          else pure (tempMat, Mat_inv)
      let s ← forDown 64 0 s fun i s =>
        forDown i 0 s fun j (tempMat, Mat_inv) => do
          if ← hasBit2 tempMat j 0 idM64 i then
            let tempMat ← xorWords [0] tempMat j i
            let Mat_inv ← xorWords [0, 1] Mat_inv j i
            pure (tempMat, Mat_inv)
          else pure (tempMat, Mat_inv)
      let Mat ← copyM128 resultMat Mat
      pure (Mat, s.2)

/-- `/repo/test/WBSM4/WBMatrix/src/WBMatrix/WBMatrix.c:2800-2805` -/
def genaffinepairM128 (env : Env) (aff aff_inv : Aff128) : CM (Aff128 × Aff128) := do
  let (Mat, Mat_inv) ← old.genMatpairM128 env aff.Mat aff_inv.Mat
  let Vec ← old.randV128 env aff.Vec
  let Vec_inv ← liftC (MatMulVecM128 env Mat_inv Vec aff_inv.Vec)
  pure (⟨Mat, Vec⟩, ⟨Mat_inv, Vec_inv⟩)

/-- `/repo/test/WBSM4/WBMatrix/src/WBMatrix/WBMatrix.c:3448-3454` -/
def affinemixM128 (env : Env) (aff preaff_inv mixaff : Aff128) : C Aff128 := do
  let Mat ← old.MatMulMatM128 env aff.Mat preaff_inv.Mat mixaff.Mat
  let Vec ← MatMulVecM128 env aff.Mat preaff_inv.Vec mixaff.Vec
  let Vec ← wr Vec 0 ((← rd Vec 0) ^^^ (← rd aff.Vec 0))
  let Vec ← wr Vec 1 ((← rd Vec 1) ^^^ (← rd aff.Vec 1))
  pure ⟨Mat, Vec⟩

end WB.old
