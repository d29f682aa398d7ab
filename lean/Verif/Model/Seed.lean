import Verif.Model.M4
import Verif.Model.M8
import Verif.Model.M16
import Verif.Model.M32
import Verif.Model.M64
import Verif.Model.M128
import Verif.Model.M256

/-!
# Statements shared by the matrix generation programs in `/repo/test`

Generated by `tools/gen_methods.py`.  The programs declare `int randseed;` (e.g.
`/repo/test/RGEMethod_test.c:17`) although the library defines `unsigned int randseed;`.  Both
are tentative definitions of one name with external linkage; a linker that merges them (common
symbols) makes them one object, and that is what is modelled.
-/
namespace WB

/-- The expression `randseed++` where `randseed` is declared `int`: the increment of the
largest `int` overflows. -/
def randseedPostIncInt : CM (BitVec 32) := fun w =>
  if w.randseed = 0x7fffffff#32 then .error .overflow
  else .ok (w.randseed, { w with randseed := w.randseed + 1#32 })

/-- The statement `InitRandom((randseed++) ^ time(NULL));` with `int randseed` (e.g.
`/repo/test/RGEMethod_test.c:38`).  The operands are converted to the type of `time_t`, the
result to `unsigned int`. -/
def reseedInt : CM Unit := do
  InitRandom ((← randseedPostIncInt) ^^^ (← timeNow))

/-- `while(cond) s = body(s);`, given up after `fuel` evaluations of the condition. -/
def whileM {σ : Type} (cond : σ → C Bool) (body : σ → CM σ) : Nat → σ → CM σ
  | 0, _ => fun _ => .error .diverge
  | fuel + 1, s => do
    if ← liftC (cond s) then
      let s ← body s
      whileM cond body fuel s
    else pure s

end WB
