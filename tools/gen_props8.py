#!/usr/bin/env python3
"""Writes lean/Verif/Prop/C36.lean and C41.lean (frame, aliasing, programs)."""
from propslib import *
# ---------------------------------------------------------------- C41
b = '''
/-! ### The specification: programs over matrix and vector variables -/

/-- Statements over numbered matrix variables and numbered vector variables; `d` is the variable that is assigned.
The same variable may occur on both sides. -/
inductive Stmt
  | zero (d : Nat)
  | one (d : Nat)
  | copy (d a : Nat)
  | add (d a b : Nat)
  | mul (d a b : Nat)
  | trans (d a : Nat)
  | inv (d a : Nat)
  | zeroVec (d : Nat)
  | addVec (d x y : Nat)
  | mulVec (d a x : Nat)

/-- The values of all variables. -/
structure Vars (M V : Type) where
  mats : Nat → M
  vecs : Nat → V

def Vars.setM {M V : Type} (s : Vars M V) (d : Nat) (X : M) : Vars M V :=
  { s with mats := fun k => if k = d then X else s.mats k }

def Vars.setV {M V : Type} (s : Vars M V) (d : Nat) (x : V) : Vars M V :=
  { s with vecs := fun k => if k = d then x else s.vecs k }

/-- Matrices and vectors over GF(2). -/
abbrev Math (n : Nat) := Vars (Matrix (Fin n) (Fin n) (ZMod 2)) (Fin n → ZMod 2)

/-- What a statement means mathematically. The inverse is only defined if there is one. -/
def Stmt.Means {n : Nat} : Stmt → Math n → Math n → Prop
  | .zero d, s, t => t = s.setM d 0
  | .one d, s, t => t = s.setM d 1
  | .copy d a, s, t => t = s.setM d (s.mats a)
  | .add d a b, s, t => t = s.setM d (s.mats a + s.mats b)
  | .mul d a b, s, t => t = s.setM d (s.mats a * s.mats b)
  | .trans d a, s, t => t = s.setM d (s.mats a)ᵀ
  | .inv d a, s, t => ∃ X, s.mats a * X = 1 ∧ t = s.setM d X
  | .zeroVec d, s, t => t = s.setV d 0
  | .addVec d x y, s, t => t = s.setV d (s.vecs x + s.vecs y)
  | .mulVec d a x, s, t => t = s.setV d ((s.mats a).mulVec (s.vecs x))

/-- What a program means. -/
def Means {n : Nat} : List Stmt → Math n → Math n → Prop
  | [], s, t => t = s
  | c :: p, s, t => ∃ u, c.Means s u ∧ Means p u t

/-! ### Running the program with the library -/

/-- The library functions used, with the C calling convention of the model (the last argument is the old content of
the output object). -/
structure Lib (M V : Type) where
  zero : M → C M
  one : M → C M
  copy : M → M → C M
  add : M → M → M → C M
  mul : M → M → M → C M
  trans : M → M → C M
  inv : M → M → C M
  zeroVec : V → C V
  addVec : V → V → V → C V
  mulVec : M → V → V → C V

/-- One call. The arguments are passed by value, the address of variable `d` is passed for the result. -/
def Stmt.exec {M V : Type} (L : Lib M V) : Stmt → Vars M V → C (Vars M V)
  | .zero d, s => do pure (s.setM d (← L.zero (s.mats d)))
  | .one d, s => do pure (s.setM d (← L.one (s.mats d)))
  | .copy d a, s => do pure (s.setM d (← L.copy (s.mats a) (s.mats d)))
  | .add d a b, s => do pure (s.setM d (← L.add (s.mats a) (s.mats b) (s.mats d)))
  | .mul d a b, s => do pure (s.setM d (← L.mul (s.mats a) (s.mats b) (s.mats d)))
  | .trans d a, s => do pure (s.setM d (← L.trans (s.mats a) (s.mats d)))
  | .inv d a, s => do pure (s.setM d (← L.inv (s.mats a) (s.mats d)))
  | .zeroVec d, s => do pure (s.setV d (← L.zeroVec (s.vecs d)))
  | .addVec d x y, s => do pure (s.setV d (← L.addVec (s.vecs x) (s.vecs y) (s.vecs d)))
  | .mulVec d a x, s => do pure (s.setV d (← L.mulVec (s.mats a) (s.vecs x) (s.vecs d)))

/-- The calls of a program one after the other. -/
def exec {M V : Type} (L : Lib M V) : List Stmt → Vars M V → C (Vars M V)
  | [], s => pure s
  | c :: p, s => do exec L p (← c.exec L s)

/-- The mathematical values of all variables. -/
def Vars.value {M V : Type} {n : Nat} (mat : M → Matrix (Fin n) (Fin n) (ZMod 2)) (vec : V → Fin n → ZMod 2)
    (s : Vars M V) : Math n := ⟨fun k => mat (s.mats k), fun k => vec (s.vecs k)⟩

/-! ### Generic proof -/

/-- What is needed of the library; `P` and `Q` restrict the stored objects (only used for 4 bits). -/
structure Lawful {M V : Type} {n : Nat} (mat : M → Matrix (Fin n) (Fin n) (ZMod 2)) (vec : V → Fin n → ZMod 2)
    (P : M → Prop) (Q : V → Prop) (L : Lib M V) : Prop where
  zero : ∀ o, ∃ r, L.zero o = .ok r ∧ mat r = 0 ∧ P r
  one : ∀ o, ∃ r, L.one o = .ok r ∧ mat r = 1 ∧ P r
  copy : ∀ a o, P a → ∃ r, L.copy a o = .ok r ∧ mat r = mat a ∧ P r
  add : ∀ a b o, P a → P b → ∃ r, L.add a b o = .ok r ∧ mat r = mat a + mat b ∧ P r
  mul : ∀ a b o, P a → P b → ∃ r, L.mul a b o = .ok r ∧ mat r = mat a * mat b ∧ P r
  trans : ∀ a o, P a → ∃ r, L.trans a o = .ok r ∧ mat r = (mat a)ᵀ ∧ P r
  inv : ∀ a o, P a → IsUnit (mat a) → ∃ r, L.inv a o = .ok r ∧ mat a * mat r = 1 ∧ P r
  zeroVec : ∀ o, ∃ r, L.zeroVec o = .ok r ∧ vec r = 0 ∧ Q r
  addVec : ∀ x y o, Q x → Q y → ∃ r, L.addVec x y o = .ok r ∧ vec r = vec x + vec y ∧ Q r
  mulVec : ∀ a x o, P a → Q x → ∃ r, L.mulVec a x o = .ok r ∧ vec r = (mat a).mulVec (vec x) ∧ Q r

section
variable {M V : Type} {n : Nat} {mat : M → Matrix (Fin n) (Fin n) (ZMod 2)} {vec : V → Fin n → ZMod 2}
variable {P : M → Prop} {Q : V → Prop} {L : Lib M V}

theorem setM_ok {s : Vars M V} (hP : ∀ k, P (s.mats k)) (hQ : ∀ k, Q (s.vecs k)) {t : Math n} (d : Nat)
    {f : C M} {X : Matrix (Fin n) (Fin n) (ZMod 2)} (h : ∃ r, f = .ok r ∧ mat r = X ∧ P r)
    (ht : t = (s.value mat vec).setM d X) :
    ∃ s', (do pure (s.setM d (← f)) : C (Vars M V)) = .ok s' ∧ s'.value mat vec = t ∧ (∀ k, P (s'.mats k)) ∧
      ∀ k, Q (s'.vecs k) := by
  obtain ⟨r, hr, hX, hp⟩ := h
  refine ⟨s.setM d r, by rw [hr]; rfl, ?_, fun k => ?_, hQ⟩
  · subst ht
    simp only [Vars.value, Vars.setM, Vars.mk.injEq, and_true]
    funext k
    by_cases hk : k = d <;> simp [hk, hX]
  · simp only [Vars.setM]
    by_cases hk : k = d <;> simp [hk, hp, hP]

theorem setV_ok {s : Vars M V} (hP : ∀ k, P (s.mats k)) (hQ : ∀ k, Q (s.vecs k)) {t : Math n} (d : Nat)
    {f : C V} {x : Fin n → ZMod 2} (h : ∃ r, f = .ok r ∧ vec r = x ∧ Q r)
    (ht : t = (s.value mat vec).setV d x) :
    ∃ s', (do pure (s.setV d (← f)) : C (Vars M V)) = .ok s' ∧ s'.value mat vec = t ∧ (∀ k, P (s'.mats k)) ∧
      ∀ k, Q (s'.vecs k) := by
  obtain ⟨r, hr, hX, hp⟩ := h
  refine ⟨s.setV d r, by rw [hr]; rfl, ?_, hP, fun k => ?_⟩
  · subst ht
    simp only [Vars.value, Vars.setV, Vars.mk.injEq, true_and]
    funext k
    by_cases hk : k = d <;> simp [hk, hX]
  · simp only [Vars.setV]
    by_cases hk : k = d <;> simp [hk, hp, hQ]

theorem Stmt.exec_ok (hL : Lawful mat vec P Q L) (c : Stmt) (s : Vars M V) (hP : ∀ k, P (s.mats k))
    (hQ : ∀ k, Q (s.vecs k)) (t : Math n) (h : c.Means (s.value mat vec) t) :
    ∃ s', c.exec L s = .ok s' ∧ s'.value mat vec = t ∧ (∀ k, P (s'.mats k)) ∧ ∀ k, Q (s'.vecs k) := by
  cases c with
  | zero d => exact setM_ok hP hQ d (hL.zero _) h
  | one d => exact setM_ok hP hQ d (hL.one _) h
  | copy d a => exact setM_ok hP hQ d (hL.copy _ _ (hP a)) h
  | add d a b => exact setM_ok hP hQ d (hL.add _ _ _ (hP a) (hP b)) h
  | mul d a b => exact setM_ok hP hQ d (hL.mul _ _ _ (hP a) (hP b)) h
  | trans d a => exact setM_ok hP hQ d (hL.trans _ _ (hP a)) h
  | inv d a =>
    obtain ⟨X, hX, ht⟩ := h
    have hX' : mat (s.mats a) * X = 1 := hX
    have hu : IsUnit (mat (s.mats a)) := ⟨⟨_, X, hX', mul_eq_one_comm.1 hX'⟩, rfl⟩
    obtain ⟨r, hr, h1, hp⟩ := hL.inv (s.mats a) (s.mats d) (hP a) hu
    refine setM_ok hP hQ d ⟨r, hr, ?_, hp⟩ ht
    exact hu.mul_left_cancel (h1.trans hX'.symm)
  | zeroVec d => exact setV_ok hP hQ d (hL.zeroVec _) h
  | addVec d x y => exact setV_ok hP hQ d (hL.addVec _ _ _ (hQ x) (hQ y)) h
  | mulVec d a x => exact setV_ok hP hQ d (hL.mulVec _ _ _ (hP a) (hQ x)) h

theorem exec_ok (hL : Lawful mat vec P Q L) (p : List Stmt) : ∀ (s : Vars M V) (_ : ∀ k, P (s.mats k))
    (_ : ∀ k, Q (s.vecs k)) (t : Math n) (_ : Means p (s.value mat vec) t),
    ∃ s', exec L p s = .ok s' ∧ s'.value mat vec = t ∧ (∀ k, P (s'.mats k)) ∧ ∀ k, Q (s'.vecs k) := by
  induction p with
  | nil => intro s hP hQ t h; exact ⟨s, rfl, h.symm, hP, hQ⟩
  | cons c p ih =>
    intro s hP hQ t ⟨u, hu, ht⟩
    obtain ⟨s1, h1, hv, hP1, hQ1⟩ := c.exec_ok hL s hP hQ u hu
    obtain ⟨s2, h2, h⟩ := ih s1 hP1 hQ1 t (hv ▸ ht)
    exact ⟨s2, by rw [exec, h1]; exact h2, h⟩
end

/-! ### The library, size by size -/
'''
for n in ALL:
    e = ''
    b += f'''
/-- The {n}-bit functions. -/
def lib{n} (env : Env) : Lib M{n} V{n} where
  zero := initM{n}
  one := identityM{n}
  copy := copyM{n}
  add := MatAddMatM{n}
  mul := MatMulMatM{n} env
  trans := MattransM{n} env
  inv := invsM{n}
  zeroVec := initV{n}
  addVec := VecAddVecV{n}
  mulVec := MatMulVecM{n} env
'''
    if n == 4:
        b += '''
theorem lib4_lawful (env : Env) : Lawful mat4 vec4 CleanM4 Clean4 (lib4 env) where
  zero o := C06_initM4 o
  one o := C06_identityM4 o
  copy a o h := ⟨a, C06_copyM4 a o, rfl, h⟩
  add a b o ha hb := by
    obtain ⟨r, h1, h2, h3⟩ := C05_MatAddMatM4 a b o
    exact ⟨r, h1, h2, h3 ha hb⟩
  mul a b o _ hb := C03_MatMulMatM4 env a b o hb
  trans a o ha := C04_MattransM4 env a o ha
  inv a o _ hu := by
    obtain ⟨r, h1, h2, _, h3⟩ := C13_invsM4 a o hu
    exact ⟨r, h1, h2, h3⟩
  zeroVec o := C06_initV4 o
  addVec x y o hx hy := by
    obtain ⟨r, h1, h2, h3⟩ := C05_VecAddVecV4 x y o
    exact ⟨r, h1, h2, h3 hx hy⟩
  mulVec a x o _ _ := C01_MatMulVecM4 env a x o

/-- C41 for 4 bits: the variables must hold clean objects in the beginning; then they are clean at the end. -/
theorem C41_programs4 (env : Env) (p : List Stmt) (s : Vars M4 V4) (hM : ∀ k, CleanM4 (s.mats k))
    (hV : ∀ k, Clean4 (s.vecs k)) (t : Math 4) (h : Means p (s.value mat4 vec4) t) :
    ∃ s', exec (lib4 env) p s = .ok s' ∧ s'.value mat4 vec4 = t ∧ (∀ k, CleanM4 (s'.mats k)) ∧
      ∀ k, Clean4 (s'.vecs k) :=
  exec_ok (lib4_lawful env) p s hM hV t h
'''
    else:
        def ad(x): return f'(by obtain ⟨r, h1, h2⟩ := {x}; exact ⟨r, h1, h2, trivial⟩)'
        b += f'''
theorem lib{n}_lawful (env : Env) : Lawful mat{n} vec{n} (fun _ => True) (fun _ => True) (lib{n} env) where
  zero o := {ad(f"C06_initM{n} o")}
  one o := {ad(f"C06_identityM{n} o")}
  copy a o _ := ⟨a, C06_copyM{n} a o, rfl, trivial⟩
  add a b o _ _ := {ad(f"C05_MatAddMatM{n} a b o")}
  mul a b o _ _ := {ad(f"C03_MatMulMatM{n} env a b o")}
  trans a o _ := {ad(f"C04_MattransM{n} env a o")}
  inv a o _ hu := by
    obtain ⟨r, h1, h2, _⟩ := C13_invsM{n} a o hu
    exact ⟨r, h1, h2, trivial⟩
  zeroVec o := {ad(f"C06_initV{n} o")}
  addVec x y o _ _ := {ad(f"C05_VecAddVecV{n} x y o")}
  mulVec a x o _ _ := {ad(f"C01_MatMulVecM{n} env a x o")}

/-- C41: every program computes what it means. -/
theorem C41_programs{n} (env : Env) (p : List Stmt) (s : Vars M{n} V{n}) (t : Math {n})
    (h : Means p (s.value mat{n} vec{n}) t) :
    ∃ s', exec (lib{n} env) p s = .ok s' ∧ s'.value mat{n} vec{n} = t := by
  obtain ⟨s', h1, h2, _⟩ := exec_ok (lib{n}_lawful env) p s (fun _ => trivial) (fun _ => trivial) t h
  exact ⟨s', h1, h2⟩
'''
b += '''
/-- A program with heavy aliasing: variable 0 is squared in place, inverted in place and multiplied with its own
square root; the result is the inverse of the original matrix, whatever was in variable 0. -/
def exProg : List Stmt := [.copy 1 0, .mul 0 0 0, .inv 0 0, .mul 0 0 1, .mulVec 0 0 0]

example : (exec (lib8 exEnv) exProg ⟨fun _ => exA8, fun _ => exX8⟩).toOption.map (fun s => (s.mats 0, s.vecs 0)) =
    (invsM8 exA8 exB8).toOption.bind fun B => (MatMulVecM8 exEnv B exX8 0).toOption.map fun y => (B, y) := by
  decide +kernel

/-- The hypothesis of C41 is satisfiable for this program: for every invertible start value. -/
example (n : Nat) (s : Math n) (hA : IsUnit (s.mats 0)) : ∃ t, Means exProg s t ∧ s.mats 0 * t.mats 0 = 1 := by
  obtain ⟨⟨A, X, hX, hX'⟩, hA⟩ := hA
  simp only at hA
  refine ⟨_, ⟨_, rfl, _, rfl, _, ⟨X * X, ?_, rfl⟩, _, rfl, _, rfl, rfl⟩, ?_⟩
  · simp only [Vars.setM, if_true, ← hA, ite_self]
    rw [Matrix.mul_assoc, ← Matrix.mul_assoc A X X, hX, Matrix.one_mul, hX]
  · simp only [Vars.setM, Vars.setV, if_true, ← hA, ite_self, Nat.one_ne_zero, if_false]
    rw [Matrix.mul_assoc, hX', Matrix.mul_one, hX]
'''
write('C41', ['Verif.Prop.C01', 'Verif.Prop.C03', 'Verif.Prop.C04', 'Verif.Prop.C05', 'Verif.Prop.C06', 'Verif.Prop.C13'],
      '''# C41 — programs of library calls compute what they say

Sequences of calls of any length, on any number of variables, with outputs that may be the same objects as inputs.''', b)

# ---------------------------------------------------------------- C36
b = '''
/-! ### The generator state is neither read nor changed

All other deterministic functions have a result type `C α`, that is, they do not have access to the world at all; the
print functions are the only deterministic functions that do. -/
'''
def frame(f, args, call, lem, n):
    return f'''
/-- C36: `{f}` changes nothing but the output, and what it prints does not depend on seed, generator state, clock or
earlier output. -/
theorem C36_{f}_frame {args} : ∃ text, ∀ w : World, {call} w = .ok ((), {{ w with out := w.out ++ text }}) :=
  ⟨_, {lem}⟩
'''
for n in ALL:
    b += frame(f'printM{n}', f'(A : M{n})', f'printM{n} A', f'C38_printM{n} A', n)
    b += frame(f'printV{n}', f'(x : V{n})', f'printV{n} x', f'C38_printV{n} x', n)
    if n < 256: b += frame(f'printbitM{n}', f'(A : M{n})', f'printbitM{n} A', f'C37_printbitM{n} A', n)
for n in (8, 16, 32):
    b += frame(f'printU{n}', f'(x : BitVec {n})', f'printU{n} x', f'C39_printU{n} x', n)
b += frame('printU256', '(x : Vector (BitVec 64) 4)', 'printU256 x', 'C39_printU256 x', 256)
b += '''
/-! ### Inputs are copied, so outputs may be the same objects as inputs

`vars` are the objects of the program, `d` the one whose address is passed for the result, `a`, `b` the ones passed by
value. Nothing is assumed about `d`, `a`, `b` being different; all other objects keep their contents. -/
'''
for n in ALL:
    cl = ' (hc : ∀ k, CleanM4 (s.mats k)) (hv : ∀ k, Clean4 (s.vecs k))' if n == 4 else ''
    b += f'''
/-- C36: the {n}-bit operations in place. -/
theorem C36_inplace{n} (env : Env) (s : Vars M{n} V{n}){cl} (c : Stmt) (t : Math {n})
    (h : c.Means (s.value mat{n} vec{n}) t) : ∃ s', c.exec (lib{n} env) s = .ok s' ∧ s'.value mat{n} vec{n} = t := by
  obtain ⟨s', h1, h2, _⟩ := c.exec_ok (lib{n}_lawful env) s {"hc hv" if n == 4 else "(fun _ => trivial) (fun _ => trivial)"} t h
  exact ⟨s', h1, h2⟩

/-- C36: objects that are not the destination keep their contents, bit for bit. -/
theorem C36_others{n} (env : Env) (s s' : Vars M{n} V{n}) (c : Stmt) (h : c.exec (lib{n} env) s = .ok s') :
    (∀ k, c.destM ≠ some k → s'.mats k = s.mats k) ∧ ∀ k, c.destV ≠ some k → s'.vecs k = s.vecs k :=
  exec_others (lib{n} env) s s' c h
'''
pre = '''
/-- The matrix variable a statement assigns. -/
def Stmt.destM : Stmt → Option Nat
  | .zero d | .one d | .copy d _ | .add d _ _ | .mul d _ _ | .trans d _ | .inv d _ => some d
  | .zeroVec _ | .addVec _ _ _ | .mulVec _ _ _ => none

/-- The vector variable a statement assigns. -/
def Stmt.destV : Stmt → Option Nat
  | .zeroVec d | .addVec d _ _ | .mulVec d _ _ => some d
  | .zero _ | .one _ | .copy _ _ | .add _ _ _ | .mul _ _ _ | .trans _ _ | .inv _ _ => none

theorem exec_others {M V : Type} (L : Lib M V) (s s' : Vars M V) (c : Stmt) (h : c.exec L s = .ok s') :
    (∀ k, c.destM ≠ some k → s'.mats k = s.mats k) ∧ ∀ k, c.destV ≠ some k → s'.vecs k = s.vecs k := by
  have hm : ∀ (f : C M) (d : Nat), (do pure (s.setM d (← f)) : C (Vars M V)) = .ok s' →
      (∀ k, some d ≠ some k → s'.mats k = s.mats k) ∧ ∀ k, none ≠ some k → s'.vecs k = s.vecs k := by
    intro f d h
    cases f with
    | error e => exact nomatch h
    | ok r =>
      cases h
      refine ⟨fun k hk => if_neg fun e => hk (by rw [e]), fun k _ => rfl⟩
  have hv : ∀ (f : C V) (d : Nat), (do pure (s.setV d (← f)) : C (Vars M V)) = .ok s' →
      (∀ k, none ≠ some k → s'.mats k = s.mats k) ∧ ∀ k, some d ≠ some k → s'.vecs k = s.vecs k := by
    intro f d h
    cases f with
    | error e => exact nomatch h
    | ok r =>
      cases h
      refine ⟨fun k _ => rfl, fun k hk => if_neg fun e => hk (by rw [e])⟩
  cases c <;> first | exact hm _ _ h | exact hv _ _ h
'''
b += '''
example : (printV16 0xbeef exWorld).toOption.map (fun r => (String.ofList r.2.out, r.2.randseed)) =
    some ("0xbeef\\n", exWorld.randseed) := by decide +kernel
example : (Stmt.exec (lib16 exEnv) (.mul 3 3 3) ⟨fun _ => exA16, fun _ => exX16⟩).toOption.map (fun s => s.mats 3) =
    (MatMulMatM16 exEnv exA16 exA16 exB16).toOption := by decide +kernel
'''
write('C36', ['Verif.Prop.C37', 'Verif.Prop.C38', 'Verif.Prop.C39', 'Verif.Prop.C41'],
      '# C36 — purity of the deterministic functions', pre + b)
