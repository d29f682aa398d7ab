import Verif.Proof.AccuracyMain
import Verif.Prop.Examples

/-!
# C60 — what the accuracy test of the library prints

Generated by `tools/gen_c60.py`.
-/
namespace WB
open accuracy

/-- The lines about everything but concatenation when all tests pass. -/
def passLines : List String :=
  ["-----bitwise operation (read/set/flip) test-----\n", "4bit: PASS\n", "8bit: PASS\n", "16bit: PASS\n", "32bit: PASS\n", "64bit: PASS\n", "128bit: PASS\n", "256bit: PASS\n",
   "-----mat mul num test-----\n", "4bit: PASS\n", "8bit: PASS\n", "16bit: PASS\n", "32bit: PASS\n", "64bit: PASS\n",
   "-----mat mul vec test-----\n", "4bit: PASS\n", "8bit: PASS\n", "16bit: PASS\n", "32bit: PASS\n", "64bit: PASS\n", "128bit: PASS\n", "256bit: PASS\n",
   "-----mat mul mat (includes mat transpositon) test-----\n", "4bit: PASS\n", "8bit: PASS\n", "16bit: PASS\n", "32bit: PASS\n", "64bit: PASS\n", "128bit: PASS\n", "256bit: PASS\n",
   "-----invertible and inverse test-----\n", "4bit: PASS\n", "8bit: PASS\n", "16bit: PASS\n", "32bit: PASS\n", "64bit: PASS\n", "128bit: PASS\n", "256bit: PASS\n",
   "-----invertible affine and affine transform test-----\n", "4bit: PASS\n", "8bit: PASS\n", "16bit: PASS\n", "32bit: PASS\n", "64bit: PASS\n", "128bit: PASS\n",
   "-----affine mix test-----\n", "4bit: PASS\n", "8bit: PASS\n", "16bit: PASS\n", "32bit: PASS\n", "64bit: PASS\n", "128bit: PASS\n"]

/-- The text of a list of strings. -/
def textOf (l : List String) : List Char := (l.map String.toList).flatten

/-- C60: on a little-endian machine the accuracy test prints `PASS` on every line and ends with `ALL PASS!`; no seed,
clock, generator state or stack contents can make it print anything else. -/
theorem C60_accuracy_little (env : Env) (he : env.endian = .little) (S : Stack) (w : World) :
    ∃ w', main env S w = .ok (0, w') ∧
      w'.out = w.out ++ textOf (passLines ++ ["-----affine concatenation test-----\n",
        "8to32: PASS\n", "8to64: PASS\n", "8to128: PASS\n", "16to64: PASS\n", "32to128: PASS\n", "16to128: PASS\n", "\nALL PASS!"]) := by
  obtain ⟨⟨r, w'⟩, h, hr, ho⟩ := main_ok env S w
  rw [show isLE env = true by unfold isLE; rw [he]; rfl] at ho
  refine ⟨w', ?_, ho⟩
  rw [h]; exact congrArg (fun r => Except.ok (r, w')) hr

/-- C60: on a big-endian machine the six lines about concatenation report `ERROR`, every other line is `PASS`, and
the program ends with `ERROR!` (and still returns 0). -/
theorem C60_accuracy_big (env : Env) (he : env.endian = .big) (S : Stack) (w : World) :
    ∃ w', main env S w = .ok (0, w') ∧
      w'.out = w.out ++ textOf (passLines ++ ["-----affine concatenation test-----\n",
        "8to32: ERROR\n", "8to64: ERROR\n", "8to128: ERROR\n", "16to64: ERROR\n", "32to128: ERROR\n", "16to128: ERROR\n", "\nERROR!"]) := by
  obtain ⟨⟨r, w'⟩, h, hr, ho⟩ := main_ok env S w
  rw [show isLE env = false by unfold isLE; rw [he]; rfl] at ho
  refine ⟨w', ?_, ho⟩
  rw [h]; exact congrArg (fun r => Except.ok (r, w')) hr

/-- Arbitrary contents of the variables of `main`. -/
def exStack : Stack where
  m4 := fun k => if k % 2 = 0 then exA4 else exB4
  m8 := fun k => if k % 2 = 0 then exA8 else exB8
  m16 := fun k => if k % 2 = 0 then exA16 else exB16
  m32 := fun k => if k % 2 = 0 then exA32 else exB32
  m64 := fun k => if k % 2 = 0 then exA64 else exB64
  m128 := fun k => if k % 2 = 0 then exA128 else exB128
  m256 := fun k => if k % 2 = 0 then exA256 else exB256
  v4 := fun _ => exX4
  v8 := fun _ => exX8
  v16 := fun _ => exX16
  v32 := fun _ => exX32
  v64 := fun _ => exX64
  v128 := fun _ => exX128
  v256 := fun _ => exX256
  a4 := fun _ => ⟨exB4, exX4⟩
  a8 := fun _ => ⟨exB8, exX8⟩
  a16 := fun _ => ⟨exB16, exX16⟩
  a32 := fun _ => ⟨exB32, exX32⟩
  a64 := fun _ => ⟨exB64, exX64⟩
  a128 := fun _ => ⟨exB128, exX128⟩

example : ∃ w', main exEnv exStack exWorld = .ok (0, w') := by
  obtain ⟨w', h, -⟩ := C60_accuracy_little exEnv rfl exStack exWorld
  exact ⟨w', h⟩
example : ∃ w', main exEnvBE exStack exWorld = .ok (0, w') := by
  obtain ⟨w', h, -⟩ := C60_accuracy_big exEnvBE rfl exStack exWorld
  exact ⟨w', h⟩
example : passLines.length = 52 := by decide

end WB
