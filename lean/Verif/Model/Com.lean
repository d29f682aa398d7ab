import Verif.Model.M128

/-!
# Concatenation functions of `/repo/src/WBMatrix/WBMatrix.c`

Generated once by `tools/gen_com.py`; kept under version control as source.
The pointer `m` (resp. `v`) is a sub-word pointer into the current row; `*(m + c) = x` is a
sub-word store, whose place inside the word depends on the byte order `env.endian`.
`j` is the C `int` counting the rows of the result.
-/
namespace WB

/-- `MatrixcomM8to32` — `/repo/src/WBMatrix/WBMatrix.c:4376-4406`. -/
def MatrixcomM8to32 (env : Env) (m1 m2 m3 m4 : M8) (mat : M32) : C M32 := do
  let mat ← initM32 mat
  let s := (mat, 0)
  let s ← forUp 0 8 s fun i (mat, j) => do
    let mat ← wr mat j (← env.stSub (← rd mat j) 3 (← rd m1 i))
    pure (mat, j + 1)
  let s ← forUp 0 8 s fun i (mat, j) => do
    let mat ← wr mat j (← env.stSub (← rd mat j) 2 (← rd m2 i))
    pure (mat, j + 1)
  let s ← forUp 0 8 s fun i (mat, j) => do
    let mat ← wr mat j (← env.stSub (← rd mat j) 1 (← rd m3 i))
    pure (mat, j + 1)
  let s ← forUp 0 8 s fun i (mat, j) => do
    let mat ← wr mat j (← env.stSub (← rd mat j) 0 (← rd m4 i))
    pure (mat, j + 1)
  pure s.1

/-- `VectorcomV8to32` — `/repo/src/WBMatrix/WBMatrix.c:4407-4415`. -/
def VectorcomV8to32 (env : Env) (v1 v2 v3 v4 : V8) (vec : V32) : C V32 := do
  let vec ← env.stSub vec 3 v1
  let vec ← env.stSub vec 2 v2
  let vec ← env.stSub vec 1 v3
  let vec ← env.stSub vec 0 v4
  pure vec

/-- `affinecomM8to32` — `/repo/src/WBMatrix/WBMatrix.c:4416-4420`. -/
def affinecomM8to32 (env : Env) (aff1 aff2 aff3 aff4 : Aff8) (aff : Aff32) : C Aff32 := do
  let Mat ← MatrixcomM8to32 env aff1.Mat aff2.Mat aff3.Mat aff4.Mat aff.Mat
  let Vec ← VectorcomV8to32 env aff1.Vec aff2.Vec aff3.Vec aff4.Vec aff.Vec
  pure ⟨Mat, Vec⟩

/-- `MatrixcomM16to64` — `/repo/src/WBMatrix/WBMatrix.c:4421-4451`. -/
def MatrixcomM16to64 (env : Env) (m1 m2 m3 m4 : M16) (mat : M64) : C M64 := do
  let mat ← initM64 mat
  let s := (mat, 0)
  let s ← forUp 0 16 s fun i (mat, j) => do
    let mat ← wr mat j (← env.stSub (← rd mat j) 3 (← rd m1 i))
    pure (mat, j + 1)
  let s ← forUp 0 16 s fun i (mat, j) => do
    let mat ← wr mat j (← env.stSub (← rd mat j) 2 (← rd m2 i))
    pure (mat, j + 1)
  let s ← forUp 0 16 s fun i (mat, j) => do
    let mat ← wr mat j (← env.stSub (← rd mat j) 1 (← rd m3 i))
    pure (mat, j + 1)
  let s ← forUp 0 16 s fun i (mat, j) => do
    let mat ← wr mat j (← env.stSub (← rd mat j) 0 (← rd m4 i))
    pure (mat, j + 1)
  pure s.1

/-- `VectorcomV16to64` — `/repo/src/WBMatrix/WBMatrix.c:4452-4460`. -/
def VectorcomV16to64 (env : Env) (v1 v2 v3 v4 : V16) (vec : V64) : C V64 := do
  let vec ← env.stSub vec 3 v1
  let vec ← env.stSub vec 2 v2
  let vec ← env.stSub vec 1 v3
  let vec ← env.stSub vec 0 v4
  pure vec

/-- `affinecomM16to64` — `/repo/src/WBMatrix/WBMatrix.c:4461-4465`. -/
def affinecomM16to64 (env : Env) (aff1 aff2 aff3 aff4 : Aff16) (aff : Aff64) : C Aff64 := do
  let Mat ← MatrixcomM16to64 env aff1.Mat aff2.Mat aff3.Mat aff4.Mat aff.Mat
  let Vec ← VectorcomV16to64 env aff1.Vec aff2.Vec aff3.Vec aff4.Vec aff.Vec
  pure ⟨Mat, Vec⟩

/-- `MatrixcomM8to64` — `/repo/src/WBMatrix/WBMatrix.c:4466-4520`. -/
def MatrixcomM8to64 (env : Env) (m1 m2 m3 m4 m5 m6 m7 m8 : M8) (mat : M64) : C M64 := do
  let mat ← initM64 mat
  let s := (mat, 0)
  let s ← forUp 0 8 s fun i (mat, j) => do
    let mat ← wr mat j (← env.stSub (← rd mat j) 7 (← rd m1 i))
    pure (mat, j + 1)
  let s ← forUp 0 8 s fun i (mat, j) => do
    let mat ← wr mat j (← env.stSub (← rd mat j) 6 (← rd m2 i))
    pure (mat, j + 1)
  let s ← forUp 0 8 s fun i (mat, j) => do
    let mat ← wr mat j (← env.stSub (← rd mat j) 5 (← rd m3 i))
    pure (mat, j + 1)
  let s ← forUp 0 8 s fun i (mat, j) => do
    let mat ← wr mat j (← env.stSub (← rd mat j) 4 (← rd m4 i))
    pure (mat, j + 1)
  let s ← forUp 0 8 s fun i (mat, j) => do
    let mat ← wr mat j (← env.stSub (← rd mat j) 3 (← rd m5 i))
    pure (mat, j + 1)
  let s ← forUp 0 8 s fun i (mat, j) => do
    let mat ← wr mat j (← env.stSub (← rd mat j) 2 (← rd m6 i))
    pure (mat, j + 1)
  let s ← forUp 0 8 s fun i (mat, j) => do
    let mat ← wr mat j (← env.stSub (← rd mat j) 1 (← rd m7 i))
    pure (mat, j + 1)
  let s ← forUp 0 8 s fun i (mat, j) => do
    let mat ← wr mat j (← env.stSub (← rd mat j) 0 (← rd m8 i))
    pure (mat, j + 1)
  pure s.1

/-- `VectorcomV8to64` — `/repo/src/WBMatrix/WBMatrix.c:4521-4533`. -/
def VectorcomV8to64 (env : Env) (v1 v2 v3 v4 v5 v6 v7 v8 : V8) (vec : V64) : C V64 := do
  let vec ← env.stSub vec 7 v1
  let vec ← env.stSub vec 6 v2
  let vec ← env.stSub vec 5 v3
  let vec ← env.stSub vec 4 v4
  let vec ← env.stSub vec 3 v5
  let vec ← env.stSub vec 2 v6
  let vec ← env.stSub vec 1 v7
  let vec ← env.stSub vec 0 v8
  pure vec

/-- `affinecomM8to64` — `/repo/src/WBMatrix/WBMatrix.c:4534-4538`. -/
def affinecomM8to64 (env : Env) (aff1 aff2 aff3 aff4 aff5 aff6 aff7 aff8 : Aff8) (aff : Aff64) : C Aff64 := do
  let Mat ← MatrixcomM8to64 env aff1.Mat aff2.Mat aff3.Mat aff4.Mat aff5.Mat aff6.Mat aff7.Mat aff8.Mat aff.Mat
  let Vec ← VectorcomV8to64 env aff1.Vec aff2.Vec aff3.Vec aff4.Vec aff5.Vec aff6.Vec aff7.Vec aff8.Vec aff.Vec
  pure ⟨Mat, Vec⟩

/-- `MatrixcomM32to128` — `/repo/src/WBMatrix/WBMatrix.c:4539-4569`. -/
def MatrixcomM32to128 (env : Env) (m1 m2 m3 m4 : M32) (mat : M128) : C M128 := do
  let mat ← initM128 mat
  let s := (mat, 0)
  let s ← forUp 0 32 s fun i (mat, j) => do
    let mat ← wr2 mat j 0 (← env.stSub (← rd2 mat j 0) 1 (← rd m1 i))
    pure (mat, j + 1)
  let s ← forUp 0 32 s fun i (mat, j) => do
    let mat ← wr2 mat j 0 (← env.stSub (← rd2 mat j 0) 0 (← rd m2 i))
    pure (mat, j + 1)
  let s ← forUp 0 32 s fun i (mat, j) => do
    let mat ← wr2 mat j 1 (← env.stSub (← rd2 mat j 1) 1 (← rd m3 i))
    pure (mat, j + 1)
  let s ← forUp 0 32 s fun i (mat, j) => do
    let mat ← wr2 mat j 1 (← env.stSub (← rd2 mat j 1) 0 (← rd m4 i))
    pure (mat, j + 1)
  pure s.1

/-- `VectorcomV32to128` — `/repo/src/WBMatrix/WBMatrix.c:4570-4579`. -/
def VectorcomV32to128 (env : Env) (v1 v2 v3 v4 : V32) (vec : V128) : C V128 := do
  let vec ← wr vec 0 (← env.stSub (← rd vec 0) 1 v1)
  let vec ← wr vec 0 (← env.stSub (← rd vec 0) 0 v2)
  let vec ← wr vec 1 (← env.stSub (← rd vec 1) 1 v3)
  let vec ← wr vec 1 (← env.stSub (← rd vec 1) 0 v4)
  pure vec

/-- `affinecomM32to128` — `/repo/src/WBMatrix/WBMatrix.c:4580-4584`. -/
def affinecomM32to128 (env : Env) (aff1 aff2 aff3 aff4 : Aff32) (aff : Aff128) : C Aff128 := do
  let Mat ← MatrixcomM32to128 env aff1.Mat aff2.Mat aff3.Mat aff4.Mat aff.Mat
  let Vec ← VectorcomV32to128 env aff1.Vec aff2.Vec aff3.Vec aff4.Vec aff.Vec
  pure ⟨Mat, Vec⟩

/-- `MatrixcomM8to128` — `/repo/src/WBMatrix/WBMatrix.c:4585-4687`. -/
def MatrixcomM8to128 (env : Env) (m1 m2 m3 m4 m5 m6 m7 m8 m9 m10 m11 m12 m13 m14 m15 m16 : M8) (mat : M128) : C M128 := do
  let mat ← initM128 mat
  let s := (mat, 0)
  let s ← forUp 0 8 s fun i (mat, j) => do
    let mat ← wr2 mat j 0 (← env.stSub (← rd2 mat j 0) 7 (← rd m1 i))
    pure (mat, j + 1)
  let s ← forUp 0 8 s fun i (mat, j) => do
    let mat ← wr2 mat j 0 (← env.stSub (← rd2 mat j 0) 6 (← rd m2 i))
    pure (mat, j + 1)
  let s ← forUp 0 8 s fun i (mat, j) => do
    let mat ← wr2 mat j 0 (← env.stSub (← rd2 mat j 0) 5 (← rd m3 i))
    pure (mat, j + 1)
  let s ← forUp 0 8 s fun i (mat, j) => do
    let mat ← wr2 mat j 0 (← env.stSub (← rd2 mat j 0) 4 (← rd m4 i))
    pure (mat, j + 1)
  let s ← forUp 0 8 s fun i (mat, j) => do
    let mat ← wr2 mat j 0 (← env.stSub (← rd2 mat j 0) 3 (← rd m5 i))
    pure (mat, j + 1)
  let s ← forUp 0 8 s fun i (mat, j) => do
    let mat ← wr2 mat j 0 (← env.stSub (← rd2 mat j 0) 2 (← rd m6 i))
    pure (mat, j + 1)
  let s ← forUp 0 8 s fun i (mat, j) => do
    let mat ← wr2 mat j 0 (← env.stSub (← rd2 mat j 0) 1 (← rd m7 i))
    pure (mat, j + 1)
  let s ← forUp 0 8 s fun i (mat, j) => do
    let mat ← wr2 mat j 0 (← env.stSub (← rd2 mat j 0) 0 (← rd m8 i))
    pure (mat, j + 1)
  let s ← forUp 0 8 s fun i (mat, j) => do
    let mat ← wr2 mat j 1 (← env.stSub (← rd2 mat j 1) 7 (← rd m9 i))
    pure (mat, j + 1)
  let s ← forUp 0 8 s fun i (mat, j) => do
    let mat ← wr2 mat j 1 (← env.stSub (← rd2 mat j 1) 6 (← rd m10 i))
    pure (mat, j + 1)
  let s ← forUp 0 8 s fun i (mat, j) => do
    let mat ← wr2 mat j 1 (← env.stSub (← rd2 mat j 1) 5 (← rd m11 i))
    pure (mat, j + 1)
  let s ← forUp 0 8 s fun i (mat, j) => do
    let mat ← wr2 mat j 1 (← env.stSub (← rd2 mat j 1) 4 (← rd m12 i))
    pure (mat, j + 1)
  let s ← forUp 0 8 s fun i (mat, j) => do
    let mat ← wr2 mat j 1 (← env.stSub (← rd2 mat j 1) 3 (← rd m13 i))
    pure (mat, j + 1)
  let s ← forUp 0 8 s fun i (mat, j) => do
    let mat ← wr2 mat j 1 (← env.stSub (← rd2 mat j 1) 2 (← rd m14 i))
    pure (mat, j + 1)
  let s ← forUp 0 8 s fun i (mat, j) => do
    let mat ← wr2 mat j 1 (← env.stSub (← rd2 mat j 1) 1 (← rd m15 i))
    pure (mat, j + 1)
  let s ← forUp 0 8 s fun i (mat, j) => do
    let mat ← wr2 mat j 1 (← env.stSub (← rd2 mat j 1) 0 (← rd m16 i))
    pure (mat, j + 1)
  pure s.1

/-- `VectorcomV8to128` — `/repo/src/WBMatrix/WBMatrix.c:4688-4709`. -/
def VectorcomV8to128 (env : Env) (v1 v2 v3 v4 v5 v6 v7 v8 v9 v10 v11 v12 v13 v14 v15 v16 : V8) (vec : V128) : C V128 := do
  let vec ← wr vec 0 (← env.stSub (← rd vec 0) 7 v1)
  let vec ← wr vec 0 (← env.stSub (← rd vec 0) 6 v2)
  let vec ← wr vec 0 (← env.stSub (← rd vec 0) 5 v3)
  let vec ← wr vec 0 (← env.stSub (← rd vec 0) 4 v4)
  let vec ← wr vec 0 (← env.stSub (← rd vec 0) 3 v5)
  let vec ← wr vec 0 (← env.stSub (← rd vec 0) 2 v6)
  let vec ← wr vec 0 (← env.stSub (← rd vec 0) 1 v7)
  let vec ← wr vec 0 (← env.stSub (← rd vec 0) 0 v8)
  let vec ← wr vec 1 (← env.stSub (← rd vec 1) 7 v9)
  let vec ← wr vec 1 (← env.stSub (← rd vec 1) 6 v10)
  let vec ← wr vec 1 (← env.stSub (← rd vec 1) 5 v11)
  let vec ← wr vec 1 (← env.stSub (← rd vec 1) 4 v12)
  let vec ← wr vec 1 (← env.stSub (← rd vec 1) 3 v13)
  let vec ← wr vec 1 (← env.stSub (← rd vec 1) 2 v14)
  let vec ← wr vec 1 (← env.stSub (← rd vec 1) 1 v15)
  let vec ← wr vec 1 (← env.stSub (← rd vec 1) 0 v16)
  pure vec

/-- `affinecomM8to128` — `/repo/src/WBMatrix/WBMatrix.c:4710-4714`. -/
def affinecomM8to128 (env : Env) (aff1 aff2 aff3 aff4 aff5 aff6 aff7 aff8 aff9 aff10 aff11 aff12 aff13 aff14 aff15 aff16 : Aff8) (aff : Aff128) : C Aff128 := do
  let Mat ← MatrixcomM8to128 env aff1.Mat aff2.Mat aff3.Mat aff4.Mat aff5.Mat aff6.Mat aff7.Mat aff8.Mat aff9.Mat aff10.Mat aff11.Mat aff12.Mat aff13.Mat aff14.Mat aff15.Mat aff16.Mat aff.Mat
  let Vec ← VectorcomV8to128 env aff1.Vec aff2.Vec aff3.Vec aff4.Vec aff5.Vec aff6.Vec aff7.Vec aff8.Vec aff9.Vec aff10.Vec aff11.Vec aff12.Vec aff13.Vec aff14.Vec aff15.Vec aff16.Vec aff.Vec
  pure ⟨Mat, Vec⟩

/-- `MatrixcomM16to128` — `/repo/src/WBMatrix/WBMatrix.c:4715-4769`. -/
def MatrixcomM16to128 (env : Env) (m1 m2 m3 m4 m5 m6 m7 m8 : M16) (mat : M128) : C M128 := do
  let mat ← initM128 mat
  let s := (mat, 0)
  let s ← forUp 0 16 s fun i (mat, j) => do
    let mat ← wr2 mat j 0 (← env.stSub (← rd2 mat j 0) 3 (← rd m1 i))
    pure (mat, j + 1)
  let s ← forUp 0 16 s fun i (mat, j) => do
    let mat ← wr2 mat j 0 (← env.stSub (← rd2 mat j 0) 2 (← rd m2 i))
    pure (mat, j + 1)
  let s ← forUp 0 16 s fun i (mat, j) => do
    let mat ← wr2 mat j 0 (← env.stSub (← rd2 mat j 0) 1 (← rd m3 i))
    pure (mat, j + 1)
  let s ← forUp 0 16 s fun i (mat, j) => do
    let mat ← wr2 mat j 0 (← env.stSub (← rd2 mat j 0) 0 (← rd m4 i))
    pure (mat, j + 1)
  let s ← forUp 0 16 s fun i (mat, j) => do
    let mat ← wr2 mat j 1 (← env.stSub (← rd2 mat j 1) 3 (← rd m5 i))
    pure (mat, j + 1)
  let s ← forUp 0 16 s fun i (mat, j) => do
    let mat ← wr2 mat j 1 (← env.stSub (← rd2 mat j 1) 2 (← rd m6 i))
    pure (mat, j + 1)
  let s ← forUp 0 16 s fun i (mat, j) => do
    let mat ← wr2 mat j 1 (← env.stSub (← rd2 mat j 1) 1 (← rd m7 i))
    pure (mat, j + 1)
  let s ← forUp 0 16 s fun i (mat, j) => do
    let mat ← wr2 mat j 1 (← env.stSub (← rd2 mat j 1) 0 (← rd m8 i))
    pure (mat, j + 1)
  pure s.1

/-- `VectorcomV16to128` — `/repo/src/WBMatrix/WBMatrix.c:4770-4783`. -/
def VectorcomV16to128 (env : Env) (v1 v2 v3 v4 v5 v6 v7 v8 : V16) (vec : V128) : C V128 := do
  let vec ← wr vec 0 (← env.stSub (← rd vec 0) 3 v1)
  let vec ← wr vec 0 (← env.stSub (← rd vec 0) 2 v2)
  let vec ← wr vec 0 (← env.stSub (← rd vec 0) 1 v3)
  let vec ← wr vec 0 (← env.stSub (← rd vec 0) 0 v4)
  let vec ← wr vec 1 (← env.stSub (← rd vec 1) 3 v5)
  let vec ← wr vec 1 (← env.stSub (← rd vec 1) 2 v6)
  let vec ← wr vec 1 (← env.stSub (← rd vec 1) 1 v7)
  let vec ← wr vec 1 (← env.stSub (← rd vec 1) 0 v8)
  pure vec

/-- `affinecomM16to128` — `/repo/src/WBMatrix/WBMatrix.c:4784-4788`. -/
def affinecomM16to128 (env : Env) (aff1 aff2 aff3 aff4 aff5 aff6 aff7 aff8 : Aff16) (aff : Aff128) : C Aff128 := do
  let Mat ← MatrixcomM16to128 env aff1.Mat aff2.Mat aff3.Mat aff4.Mat aff5.Mat aff6.Mat aff7.Mat aff8.Mat aff.Mat
  let Vec ← VectorcomV16to128 env aff1.Vec aff2.Vec aff3.Vec aff4.Vec aff5.Vec aff6.Vec aff7.Vec aff8.Vec aff.Vec
  pure ⟨Mat, Vec⟩

end WB
