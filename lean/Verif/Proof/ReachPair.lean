import Verif.Proof.Reach
import Verif.Prop.C29

/-!
# The result of the pair generators as a function of the seed value

Generated by `tools/gen_c61.py`.
-/
namespace WB
open Matrix

set_option maxRecDepth 20000

/-- The first matrix of a result. -/
def firstOf {α σ : Type} (d : α) (x : Except Fault ((α × α) × σ)) : α :=
  match x with
  | .ok (p, _) => p.1
  | .error _ => d

theorem firstOf_eq {α σ : Type} {d a b : α} {r : α × α} {x : Except Fault ((α × α) × σ)} {v w' v' : σ}
    (h : (Except.ok ((a, b), w') : Except Fault ((α × α) × σ)) = .ok (r, v)) (h' : x = .ok (r, v')) :
    firstOf d x = a := by
  subst h'
  cases h
  rfl

theorem seed_undo (x : BitVec 32) : x = (x - 1#32 + 1#32) ^^^ 0 := by
  rw [BitVec.sub_add_cancel]; exact BitVec.xor_zero.symm

theorem wordS_congr {env env' : Env} (he : env.endian = env'.endian) (s : BitVec 32) (k : Nat) :
    wordS env s k = wordS env' s k := pair64_congr he _ _

/-- The first matrix of the pair that `genMatpairM8` stores after seeding with `s`. -/
noncomputable def pairOf8 (s : BitVec 32) : M8 :=
  firstOf (Vector.replicate _ (0)) (genMatpairM8 ⟨.little, fun _ _ => 0⟩ (Vector.replicate _ (0)) (Vector.replicate _ (0)) ⟨s - 1#32, 0, 0, fun _ => 0, 0, []⟩)

theorem pairOf8_eq {env : Env} {A0 B0 A B : M8} {w w' : World}
    (h : genMatpairM8 env A0 B0 w = .ok ((A, B), w')) :
    pairOf8 ((w.randseed + 1#32) ^^^ w.clock (w.now + 1)) = A := by
  obtain ⟨r, v, v', h1, h2, -⟩ := C29_genMatpairM8 env ⟨.little, fun _ _ => 0⟩ A0 B0 (Vector.replicate _ (0))
    (Vector.replicate _ (0)) w ⟨((w.randseed + 1#32) ^^^ w.clock (w.now + 1)) - 1#32, 0, 0, fun _ => 0, 0, []⟩
    (seed_undo _)
  rw [pairOf8]
  exact firstOf_eq (h.symm.trans h1) h2

/-- The first matrix of the pair that `genMatpairM16` stores after seeding with `s`. -/
noncomputable def pairOf16 (s : BitVec 32) : M16 :=
  firstOf (Vector.replicate _ (0)) (genMatpairM16 ⟨.little, fun _ _ => 0⟩ (Vector.replicate _ (0)) (Vector.replicate _ (0)) ⟨s - 1#32, 0, 0, fun _ => 0, 0, []⟩)

theorem pairOf16_eq {env : Env} {A0 B0 A B : M16} {w w' : World}
    (h : genMatpairM16 env A0 B0 w = .ok ((A, B), w')) :
    pairOf16 ((w.randseed + 1#32) ^^^ w.clock (w.now + 1)) = A := by
  obtain ⟨r, v, v', h1, h2, -⟩ := C29_genMatpairM16 env ⟨.little, fun _ _ => 0⟩ A0 B0 (Vector.replicate _ (0))
    (Vector.replicate _ (0)) w ⟨((w.randseed + 1#32) ^^^ w.clock (w.now + 1)) - 1#32, 0, 0, fun _ => 0, 0, []⟩
    (seed_undo _)
  rw [pairOf16]
  exact firstOf_eq (h.symm.trans h1) h2

/-- The first matrix of the pair that `genMatpairM32` stores after seeding with `s`. -/
noncomputable def pairOf32 (s : BitVec 32) : M32 :=
  firstOf (Vector.replicate _ (0)) (genMatpairM32 ⟨.little, fun _ _ => 0⟩ (Vector.replicate _ (0)) (Vector.replicate _ (0)) ⟨s - 1#32, 0, 0, fun _ => 0, 0, []⟩)

theorem pairOf32_eq {env : Env} {A0 B0 A B : M32} {w w' : World}
    (h : genMatpairM32 env A0 B0 w = .ok ((A, B), w')) :
    pairOf32 ((w.randseed + 1#32) ^^^ w.clock (w.now + 1)) = A := by
  obtain ⟨r, v, v', h1, h2, -⟩ := C29_genMatpairM32 env ⟨.little, fun _ _ => 0⟩ A0 B0 (Vector.replicate _ (0))
    (Vector.replicate _ (0)) w ⟨((w.randseed + 1#32) ^^^ w.clock (w.now + 1)) - 1#32, 0, 0, fun _ => 0, 0, []⟩
    (seed_undo _)
  rw [pairOf32]
  exact firstOf_eq (h.symm.trans h1) h2

/-- The first matrix of the pair that `genMatpairM64` stores after seeding with `s`. -/
noncomputable def pairOf64 (e : Endian) (s : BitVec 32) : M64 :=
  firstOf (Vector.replicate _ (0)) (genMatpairM64 ⟨e, fun _ _ => 0⟩ (Vector.replicate _ (0)) (Vector.replicate _ (0)) ⟨s - 1#32, 0, 0, fun _ => 0, 0, []⟩)

theorem pairOf64_eq {env : Env} {A0 B0 A B : M64} {w w' : World}
    (h : genMatpairM64 env A0 B0 w = .ok ((A, B), w')) :
    pairOf64 env.endian ((w.randseed + 1#32) ^^^ w.clock (w.now + 1)) = A := by
  obtain ⟨r, v, v', h1, h2, -⟩ := C29_genMatpairM64 env ⟨env.endian, fun _ _ => 0⟩ rfl A0 B0 (Vector.replicate _ (0))
    (Vector.replicate _ (0)) w ⟨((w.randseed + 1#32) ^^^ w.clock (w.now + 1)) - 1#32, 0, 0, fun _ => 0, 0, []⟩
    (seed_undo _)
  rw [pairOf64]
  exact firstOf_eq (h.symm.trans h1) h2

/-- A matrix from a stream of words. -/
def ofWords64 (f : Nat → BitVec 64) : M64 := Vector.ofFn fun i => f i

theorem gen64_congr {env env' : Env} (he : env.endian = env'.endian) (s : BitVec 32) :
    gen64 env s = gen64 env' s :=
  congrArg ofWords64 (funext fun k => wordS_congr he s k)

/-- The first matrix of the pair that `genMatpairM128` stores after seeding with `s`. -/
noncomputable def pairOf128 (e : Endian) (s : BitVec 32) : M128 :=
  firstOf (Vector.replicate _ (Vector.replicate _ 0)) (genMatpairM128 ⟨e, fun _ _ => 0⟩ (Vector.replicate _ (Vector.replicate _ 0)) (Vector.replicate _ (Vector.replicate _ 0)) ⟨s - 1#32, 0, 0, fun _ => 0, 0, []⟩)

theorem pairOf128_eq {env : Env} {A0 B0 A B : M128} {w w' : World}
    (h : genMatpairM128 env A0 B0 w = .ok ((A, B), w')) :
    pairOf128 env.endian ((w.randseed + 1#32) ^^^ w.clock (w.now + 1)) = A := by
  obtain ⟨r, v, v', h1, h2, -⟩ := C29_genMatpairM128 env ⟨env.endian, fun _ _ => 0⟩ rfl A0 B0 (Vector.replicate _ (Vector.replicate _ 0))
    (Vector.replicate _ (Vector.replicate _ 0)) w ⟨((w.randseed + 1#32) ^^^ w.clock (w.now + 1)) - 1#32, 0, 0, fun _ => 0, 0, []⟩
    (seed_undo _)
  rw [pairOf128]
  exact firstOf_eq (h.symm.trans h1) h2

/-- A matrix from a stream of words. -/
def ofWords128 (f : Nat → BitVec 64) : M128 := Vector.ofFn fun i => #v[f (2 * i), f (2 * i + 1)]

theorem gen128_congr {env env' : Env} (he : env.endian = env'.endian) (s : BitVec 32) :
    gen128 env s = gen128 env' s :=
  congrArg ofWords128 (funext fun k => wordS_congr he s k)

/-- The first matrix of the pair that `genMatpairM256` stores after seeding with `s`. -/
noncomputable def pairOf256 (e : Endian) (s : BitVec 32) : M256 :=
  firstOf (Vector.replicate _ (Vector.replicate _ 0)) (genMatpairM256 ⟨e, fun _ _ => 0⟩ (Vector.replicate _ (Vector.replicate _ 0)) (Vector.replicate _ (Vector.replicate _ 0)) ⟨s - 1#32, 0, 0, fun _ => 0, 0, []⟩)

theorem pairOf256_eq {env : Env} {A0 B0 A B : M256} {w w' : World}
    (h : genMatpairM256 env A0 B0 w = .ok ((A, B), w')) :
    pairOf256 env.endian ((w.randseed + 1#32) ^^^ w.clock (w.now + 1)) = A := by
  obtain ⟨r, v, v', h1, h2, -⟩ := C29_genMatpairM256 env ⟨env.endian, fun _ _ => 0⟩ rfl A0 B0 (Vector.replicate _ (Vector.replicate _ 0))
    (Vector.replicate _ (Vector.replicate _ 0)) w ⟨((w.randseed + 1#32) ^^^ w.clock (w.now + 1)) - 1#32, 0, 0, fun _ => 0, 0, []⟩
    (seed_undo _)
  rw [pairOf256]
  exact firstOf_eq (h.symm.trans h1) h2

/-- A matrix from a stream of words. -/
def ofWords256 (f : Nat → BitVec 64) : M256 := Vector.ofFn fun i => #v[f (4 * i), f (4 * i + 1), f (4 * i + 2), f (4 * i + 3)]

theorem gen256_congr {env env' : Env} (he : env.endian = env'.endian) (s : BitVec 32) :
    gen256 env s = gen256 env' s :=
  congrArg ofWords256 (funext fun k => wordS_congr he s k)

end WB
