import Verif.Prop.C37
import Verif.Prop.C38
import Verif.Prop.C39
import Verif.Prop.C41

/-!
# C36 — purity of the deterministic functions
-/
namespace WB
open Matrix

/-- The matrix variable a statement assigns. -/
def Stmt.destM : Stmt → Option Nat
  | .zero d | .one d | .copy d _ | .add d _ _ | .mul d _ _ | .trans d _ | .inv d _ => some d
  | .zeroVec _ | .addVec _ _ _ | .mulVec _ _ _ => none

/-- The vector variable a statement assigns. -/
def Stmt.destV : Stmt → Option Nat
  | .zeroVec d | .addVec d _ _ | .mulVec d _ _ => some d
  | .zero _ | .one _ | .copy _ _ | .add _ _ _ | .mul _ _ _ | .trans _ _ | .inv _ _ => none

theorem exec_others {M V : Type} (L : Lib M V) (s s' : Vars M V) (c : Stmt) (h : c.exec L s = .ok s') :
    (∀ k, c.destM ≠ some k → s'.mats k = s.mats k) ∧ ∀ k, c.destV ≠ some k → s'.vecs k = s.vecs k := by
  have hm : ∀ (f : C M) (d : Nat), (do pure (s.setM d (← f)) : C (Vars M V)) = .ok s' →
      (∀ k, some d ≠ some k → s'.mats k = s.mats k) ∧ ∀ k, none ≠ some k → s'.vecs k = s.vecs k := by
    intro f d h
    cases f with
    | error e => exact nomatch h
    | ok r =>
      cases h
      refine ⟨fun k hk => if_neg fun e => hk (by rw [e]), fun k _ => rfl⟩
  have hv : ∀ (f : C V) (d : Nat), (do pure (s.setV d (← f)) : C (Vars M V)) = .ok s' →
      (∀ k, none ≠ some k → s'.mats k = s.mats k) ∧ ∀ k, some d ≠ some k → s'.vecs k = s.vecs k := by
    intro f d h
    cases f with
    | error e => exact nomatch h
    | ok r =>
      cases h
      refine ⟨fun k _ => rfl, fun k hk => if_neg fun e => hk (by rw [e])⟩
  cases c <;> first | exact hm _ _ h | exact hv _ _ h

/-! ### The generator state is neither read nor changed

All other deterministic functions have a result type `C α`, that is, they do not have access to the world at all; the
print functions are the only deterministic functions that do. -/

/-- C36: `printM4` changes nothing but the output, and what it prints does not depend on seed, generator state, clock or
earlier output. -/
theorem C36_printM4_frame (A : M4) : ∃ text, ∀ w : World, printM4 A w = .ok ((), { w with out := w.out ++ text }) :=
  ⟨_, C38_printM4 A⟩

/-- C36: `printV4` changes nothing but the output, and what it prints does not depend on seed, generator state, clock or
earlier output. -/
theorem C36_printV4_frame (x : V4) : ∃ text, ∀ w : World, printV4 x w = .ok ((), { w with out := w.out ++ text }) :=
  ⟨_, C38_printV4 x⟩

/-- C36: `printbitM4` changes nothing but the output, and what it prints does not depend on seed, generator state, clock or
earlier output. -/
theorem C36_printbitM4_frame (A : M4) : ∃ text, ∀ w : World, printbitM4 A w = .ok ((), { w with out := w.out ++ text }) :=
  ⟨_, C37_printbitM4 A⟩

/-- C36: `printM8` changes nothing but the output, and what it prints does not depend on seed, generator state, clock or
earlier output. -/
theorem C36_printM8_frame (A : M8) : ∃ text, ∀ w : World, printM8 A w = .ok ((), { w with out := w.out ++ text }) :=
  ⟨_, C38_printM8 A⟩

/-- C36: `printV8` changes nothing but the output, and what it prints does not depend on seed, generator state, clock or
earlier output. -/
theorem C36_printV8_frame (x : V8) : ∃ text, ∀ w : World, printV8 x w = .ok ((), { w with out := w.out ++ text }) :=
  ⟨_, C38_printV8 x⟩

/-- C36: `printbitM8` changes nothing but the output, and what it prints does not depend on seed, generator state, clock or
earlier output. -/
theorem C36_printbitM8_frame (A : M8) : ∃ text, ∀ w : World, printbitM8 A w = .ok ((), { w with out := w.out ++ text }) :=
  ⟨_, C37_printbitM8 A⟩

/-- C36: `printM16` changes nothing but the output, and what it prints does not depend on seed, generator state, clock or
earlier output. -/
theorem C36_printM16_frame (A : M16) : ∃ text, ∀ w : World, printM16 A w = .ok ((), { w with out := w.out ++ text }) :=
  ⟨_, C38_printM16 A⟩

/-- C36: `printV16` changes nothing but the output, and what it prints does not depend on seed, generator state, clock or
earlier output. -/
theorem C36_printV16_frame (x : V16) : ∃ text, ∀ w : World, printV16 x w = .ok ((), { w with out := w.out ++ text }) :=
  ⟨_, C38_printV16 x⟩

/-- C36: `printbitM16` changes nothing but the output, and what it prints does not depend on seed, generator state, clock or
earlier output. -/
theorem C36_printbitM16_frame (A : M16) : ∃ text, ∀ w : World, printbitM16 A w = .ok ((), { w with out := w.out ++ text }) :=
  ⟨_, C37_printbitM16 A⟩

/-- C36: `printM32` changes nothing but the output, and what it prints does not depend on seed, generator state, clock or
earlier output. -/
theorem C36_printM32_frame (A : M32) : ∃ text, ∀ w : World, printM32 A w = .ok ((), { w with out := w.out ++ text }) :=
  ⟨_, C38_printM32 A⟩

/-- C36: `printV32` changes nothing but the output, and what it prints does not depend on seed, generator state, clock or
earlier output. -/
theorem C36_printV32_frame (x : V32) : ∃ text, ∀ w : World, printV32 x w = .ok ((), { w with out := w.out ++ text }) :=
  ⟨_, C38_printV32 x⟩

/-- C36: `printbitM32` changes nothing but the output, and what it prints does not depend on seed, generator state, clock or
earlier output. -/
theorem C36_printbitM32_frame (A : M32) : ∃ text, ∀ w : World, printbitM32 A w = .ok ((), { w with out := w.out ++ text }) :=
  ⟨_, C37_printbitM32 A⟩

/-- C36: `printM64` changes nothing but the output, and what it prints does not depend on seed, generator state, clock or
earlier output. -/
theorem C36_printM64_frame (A : M64) : ∃ text, ∀ w : World, printM64 A w = .ok ((), { w with out := w.out ++ text }) :=
  ⟨_, C38_printM64 A⟩

/-- C36: `printV64` changes nothing but the output, and what it prints does not depend on seed, generator state, clock or
earlier output. -/
theorem C36_printV64_frame (x : V64) : ∃ text, ∀ w : World, printV64 x w = .ok ((), { w with out := w.out ++ text }) :=
  ⟨_, C38_printV64 x⟩

/-- C36: `printbitM64` changes nothing but the output, and what it prints does not depend on seed, generator state, clock or
earlier output. -/
theorem C36_printbitM64_frame (A : M64) : ∃ text, ∀ w : World, printbitM64 A w = .ok ((), { w with out := w.out ++ text }) :=
  ⟨_, C37_printbitM64 A⟩

/-- C36: `printM128` changes nothing but the output, and what it prints does not depend on seed, generator state, clock or
earlier output. -/
theorem C36_printM128_frame (A : M128) : ∃ text, ∀ w : World, printM128 A w = .ok ((), { w with out := w.out ++ text }) :=
  ⟨_, C38_printM128 A⟩

/-- C36: `printV128` changes nothing but the output, and what it prints does not depend on seed, generator state, clock or
earlier output. -/
theorem C36_printV128_frame (x : V128) : ∃ text, ∀ w : World, printV128 x w = .ok ((), { w with out := w.out ++ text }) :=
  ⟨_, C38_printV128 x⟩

/-- C36: `printbitM128` changes nothing but the output, and what it prints does not depend on seed, generator state, clock or
earlier output. -/
theorem C36_printbitM128_frame (A : M128) : ∃ text, ∀ w : World, printbitM128 A w = .ok ((), { w with out := w.out ++ text }) :=
  ⟨_, C37_printbitM128 A⟩

/-- C36: `printM256` changes nothing but the output, and what it prints does not depend on seed, generator state, clock or
earlier output. -/
theorem C36_printM256_frame (A : M256) : ∃ text, ∀ w : World, printM256 A w = .ok ((), { w with out := w.out ++ text }) :=
  ⟨_, C38_printM256 A⟩

/-- C36: `printV256` changes nothing but the output, and what it prints does not depend on seed, generator state, clock or
earlier output. -/
theorem C36_printV256_frame (x : V256) : ∃ text, ∀ w : World, printV256 x w = .ok ((), { w with out := w.out ++ text }) :=
  ⟨_, C38_printV256 x⟩

/-- C36: `printU8` changes nothing but the output, and what it prints does not depend on seed, generator state, clock or
earlier output. -/
theorem C36_printU8_frame (x : BitVec 8) : ∃ text, ∀ w : World, printU8 x w = .ok ((), { w with out := w.out ++ text }) :=
  ⟨_, C39_printU8 x⟩

/-- C36: `printU16` changes nothing but the output, and what it prints does not depend on seed, generator state, clock or
earlier output. -/
theorem C36_printU16_frame (x : BitVec 16) : ∃ text, ∀ w : World, printU16 x w = .ok ((), { w with out := w.out ++ text }) :=
  ⟨_, C39_printU16 x⟩

/-- C36: `printU32` changes nothing but the output, and what it prints does not depend on seed, generator state, clock or
earlier output. -/
theorem C36_printU32_frame (x : BitVec 32) : ∃ text, ∀ w : World, printU32 x w = .ok ((), { w with out := w.out ++ text }) :=
  ⟨_, C39_printU32 x⟩

/-- C36: `printU256` changes nothing but the output, and what it prints does not depend on seed, generator state, clock or
earlier output. -/
theorem C36_printU256_frame (x : Vector (BitVec 64) 4) : ∃ text, ∀ w : World, printU256 x w = .ok ((), { w with out := w.out ++ text }) :=
  ⟨_, C39_printU256 x⟩

/-! ### Inputs are copied, so outputs may be the same objects as inputs

`vars` are the objects of the program, `d` the one whose address is passed for the result, `a`, `b` the ones passed by
value. Nothing is assumed about `d`, `a`, `b` being different; all other objects keep their contents. -/

/-- C36: the 4-bit operations in place. -/
theorem C36_inplace4 (env : Env) (s : Vars M4 V4) (hc : ∀ k, CleanM4 (s.mats k)) (hv : ∀ k, Clean4 (s.vecs k)) (c : Stmt) (t : Math 4)
    (h : c.Means (s.value mat4 vec4) t) : ∃ s', c.exec (lib4 env) s = .ok s' ∧ s'.value mat4 vec4 = t := by
  obtain ⟨s', h1, h2, _⟩ := c.exec_ok (lib4_lawful env) s hc hv t h
  exact ⟨s', h1, h2⟩

/-- C36: objects that are not the destination keep their contents, bit for bit. -/
theorem C36_others4 (env : Env) (s s' : Vars M4 V4) (c : Stmt) (h : c.exec (lib4 env) s = .ok s') :
    (∀ k, c.destM ≠ some k → s'.mats k = s.mats k) ∧ ∀ k, c.destV ≠ some k → s'.vecs k = s.vecs k :=
  exec_others (lib4 env) s s' c h

/-- C36: the 8-bit operations in place. -/
theorem C36_inplace8 (env : Env) (s : Vars M8 V8) (c : Stmt) (t : Math 8)
    (h : c.Means (s.value mat8 vec8) t) : ∃ s', c.exec (lib8 env) s = .ok s' ∧ s'.value mat8 vec8 = t := by
  obtain ⟨s', h1, h2, _⟩ := c.exec_ok (lib8_lawful env) s (fun _ => trivial) (fun _ => trivial) t h
  exact ⟨s', h1, h2⟩

/-- C36: objects that are not the destination keep their contents, bit for bit. -/
theorem C36_others8 (env : Env) (s s' : Vars M8 V8) (c : Stmt) (h : c.exec (lib8 env) s = .ok s') :
    (∀ k, c.destM ≠ some k → s'.mats k = s.mats k) ∧ ∀ k, c.destV ≠ some k → s'.vecs k = s.vecs k :=
  exec_others (lib8 env) s s' c h

/-- C36: the 16-bit operations in place. -/
theorem C36_inplace16 (env : Env) (s : Vars M16 V16) (c : Stmt) (t : Math 16)
    (h : c.Means (s.value mat16 vec16) t) : ∃ s', c.exec (lib16 env) s = .ok s' ∧ s'.value mat16 vec16 = t := by
  obtain ⟨s', h1, h2, _⟩ := c.exec_ok (lib16_lawful env) s (fun _ => trivial) (fun _ => trivial) t h
  exact ⟨s', h1, h2⟩

/-- C36: objects that are not the destination keep their contents, bit for bit. -/
theorem C36_others16 (env : Env) (s s' : Vars M16 V16) (c : Stmt) (h : c.exec (lib16 env) s = .ok s') :
    (∀ k, c.destM ≠ some k → s'.mats k = s.mats k) ∧ ∀ k, c.destV ≠ some k → s'.vecs k = s.vecs k :=
  exec_others (lib16 env) s s' c h

/-- C36: the 32-bit operations in place. -/
theorem C36_inplace32 (env : Env) (s : Vars M32 V32) (c : Stmt) (t : Math 32)
    (h : c.Means (s.value mat32 vec32) t) : ∃ s', c.exec (lib32 env) s = .ok s' ∧ s'.value mat32 vec32 = t := by
  obtain ⟨s', h1, h2, _⟩ := c.exec_ok (lib32_lawful env) s (fun _ => trivial) (fun _ => trivial) t h
  exact ⟨s', h1, h2⟩

/-- C36: objects that are not the destination keep their contents, bit for bit. -/
theorem C36_others32 (env : Env) (s s' : Vars M32 V32) (c : Stmt) (h : c.exec (lib32 env) s = .ok s') :
    (∀ k, c.destM ≠ some k → s'.mats k = s.mats k) ∧ ∀ k, c.destV ≠ some k → s'.vecs k = s.vecs k :=
  exec_others (lib32 env) s s' c h

/-- C36: the 64-bit operations in place. -/
theorem C36_inplace64 (env : Env) (s : Vars M64 V64) (c : Stmt) (t : Math 64)
    (h : c.Means (s.value mat64 vec64) t) : ∃ s', c.exec (lib64 env) s = .ok s' ∧ s'.value mat64 vec64 = t := by
  obtain ⟨s', h1, h2, _⟩ := c.exec_ok (lib64_lawful env) s (fun _ => trivial) (fun _ => trivial) t h
  exact ⟨s', h1, h2⟩

/-- C36: objects that are not the destination keep their contents, bit for bit. -/
theorem C36_others64 (env : Env) (s s' : Vars M64 V64) (c : Stmt) (h : c.exec (lib64 env) s = .ok s') :
    (∀ k, c.destM ≠ some k → s'.mats k = s.mats k) ∧ ∀ k, c.destV ≠ some k → s'.vecs k = s.vecs k :=
  exec_others (lib64 env) s s' c h

/-- C36: the 128-bit operations in place. -/
theorem C36_inplace128 (env : Env) (s : Vars M128 V128) (c : Stmt) (t : Math 128)
    (h : c.Means (s.value mat128 vec128) t) : ∃ s', c.exec (lib128 env) s = .ok s' ∧ s'.value mat128 vec128 = t := by
  obtain ⟨s', h1, h2, _⟩ := c.exec_ok (lib128_lawful env) s (fun _ => trivial) (fun _ => trivial) t h
  exact ⟨s', h1, h2⟩

/-- C36: objects that are not the destination keep their contents, bit for bit. -/
theorem C36_others128 (env : Env) (s s' : Vars M128 V128) (c : Stmt) (h : c.exec (lib128 env) s = .ok s') :
    (∀ k, c.destM ≠ some k → s'.mats k = s.mats k) ∧ ∀ k, c.destV ≠ some k → s'.vecs k = s.vecs k :=
  exec_others (lib128 env) s s' c h

/-- C36: the 256-bit operations in place. -/
theorem C36_inplace256 (env : Env) (s : Vars M256 V256) (c : Stmt) (t : Math 256)
    (h : c.Means (s.value mat256 vec256) t) : ∃ s', c.exec (lib256 env) s = .ok s' ∧ s'.value mat256 vec256 = t := by
  obtain ⟨s', h1, h2, _⟩ := c.exec_ok (lib256_lawful env) s (fun _ => trivial) (fun _ => trivial) t h
  exact ⟨s', h1, h2⟩

/-- C36: objects that are not the destination keep their contents, bit for bit. -/
theorem C36_others256 (env : Env) (s s' : Vars M256 V256) (c : Stmt) (h : c.exec (lib256 env) s = .ok s') :
    (∀ k, c.destM ≠ some k → s'.mats k = s.mats k) ∧ ∀ k, c.destV ≠ some k → s'.vecs k = s.vecs k :=
  exec_others (lib256 env) s s' c h

example : (printV16 0xbeef exWorld).toOption.map (fun r => (String.ofList r.2.out, r.2.randseed)) =
    some ("0xbeef\n", exWorld.randseed) := by decide +kernel
example : (Stmt.exec (lib16 exEnv) (.mul 3 3 3) ⟨fun _ => exA16, fun _ => exX16⟩).toOption.map (fun s => s.mats 3) =
    (MatMulMatM16 exEnv exA16 exA16 exB16).toOption := by decide +kernel

end WB
