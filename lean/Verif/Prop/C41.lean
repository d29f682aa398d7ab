import Verif.Prop.C01
import Verif.Prop.C03
import Verif.Prop.C04
import Verif.Prop.C05
import Verif.Prop.C06
import Verif.Prop.C13

/-!
# C41 — programs of library calls compute what they say

Sequences of calls of any length, on any number of variables, with outputs that may be the same objects as inputs.
-/
namespace WB
open Matrix

/-! ### The specification: programs over matrix and vector variables -/

/-- Statements over numbered matrix variables and numbered vector variables; `d` is the variable that is assigned.
The same variable may occur on both sides. -/
inductive Stmt
  | zero (d : Nat)
  | one (d : Nat)
  | copy (d a : Nat)
  | add (d a b : Nat)
  | mul (d a b : Nat)
  | trans (d a : Nat)
  | inv (d a : Nat)
  | zeroVec (d : Nat)
  | addVec (d x y : Nat)
  | mulVec (d a x : Nat)

/-- The values of all variables. -/
structure Vars (M V : Type) where
  mats : Nat → M
  vecs : Nat → V

def Vars.setM {M V : Type} (s : Vars M V) (d : Nat) (X : M) : Vars M V :=
  { s with mats := fun k => if k = d then X else s.mats k }

def Vars.setV {M V : Type} (s : Vars M V) (d : Nat) (x : V) : Vars M V :=
  { s with vecs := fun k => if k = d then x else s.vecs k }

/-- Matrices and vectors over GF(2). -/
abbrev Math (n : Nat) := Vars (Matrix (Fin n) (Fin n) (ZMod 2)) (Fin n → ZMod 2)

/-- What a statement means mathematically. The inverse is only defined if there is one. -/
def Stmt.Means {n : Nat} : Stmt → Math n → Math n → Prop
  | .zero d, s, t => t = s.setM d 0
  | .one d, s, t => t = s.setM d 1
  | .copy d a, s, t => t = s.setM d (s.mats a)
  | .add d a b, s, t => t = s.setM d (s.mats a + s.mats b)
  | .mul d a b, s, t => t = s.setM d (s.mats a * s.mats b)
  | .trans d a, s, t => t = s.setM d (s.mats a)ᵀ
  | .inv d a, s, t => ∃ X, s.mats a * X = 1 ∧ t = s.setM d X
  | .zeroVec d, s, t => t = s.setV d 0
  | .addVec d x y, s, t => t = s.setV d (s.vecs x + s.vecs y)
  | .mulVec d a x, s, t => t = s.setV d ((s.mats a).mulVec (s.vecs x))

/-- What a program means. -/
def Means {n : Nat} : List Stmt → Math n → Math n → Prop
  | [], s, t => t = s
  | c :: p, s, t => ∃ u, c.Means s u ∧ Means p u t

/-! ### Running the program with the library -/

/-- The library functions used, with the C calling convention of the model (the last argument is the old content of
the output object). -/
structure Lib (M V : Type) where
  zero : M → C M
  one : M → C M
  copy : M → M → C M
  add : M → M → M → C M
  mul : M → M → M → C M
  trans : M → M → C M
  inv : M → M → C M
  zeroVec : V → C V
  addVec : V → V → V → C V
  mulVec : M → V → V → C V

/-- One call. The arguments are passed by value, the address of variable `d` is passed for the result. -/
def Stmt.exec {M V : Type} (L : Lib M V) : Stmt → Vars M V → C (Vars M V)
  | .zero d, s => do pure (s.setM d (← L.zero (s.mats d)))
  | .one d, s => do pure (s.setM d (← L.one (s.mats d)))
  | .copy d a, s => do pure (s.setM d (← L.copy (s.mats a) (s.mats d)))
  | .add d a b, s => do pure (s.setM d (← L.add (s.mats a) (s.mats b) (s.mats d)))
  | .mul d a b, s => do pure (s.setM d (← L.mul (s.mats a) (s.mats b) (s.mats d)))
  | .trans d a, s => do pure (s.setM d (← L.trans (s.mats a) (s.mats d)))
  | .inv d a, s => do pure (s.setM d (← L.inv (s.mats a) (s.mats d)))
  | .zeroVec d, s => do pure (s.setV d (← L.zeroVec (s.vecs d)))
  | .addVec d x y, s => do pure (s.setV d (← L.addVec (s.vecs x) (s.vecs y) (s.vecs d)))
  | .mulVec d a x, s => do pure (s.setV d (← L.mulVec (s.mats a) (s.vecs x) (s.vecs d)))

/-- The calls of a program one after the other. -/
def exec {M V : Type} (L : Lib M V) : List Stmt → Vars M V → C (Vars M V)
  | [], s => pure s
  | c :: p, s => do exec L p (← c.exec L s)

/-- The mathematical values of all variables. -/
def Vars.value {M V : Type} {n : Nat} (mat : M → Matrix (Fin n) (Fin n) (ZMod 2)) (vec : V → Fin n → ZMod 2)
    (s : Vars M V) : Math n := ⟨fun k => mat (s.mats k), fun k => vec (s.vecs k)⟩

/-! ### Generic proof -/

/-- What is needed of the library; `P` and `Q` restrict the stored objects (only used for 4 bits). -/
structure Lawful {M V : Type} {n : Nat} (mat : M → Matrix (Fin n) (Fin n) (ZMod 2)) (vec : V → Fin n → ZMod 2)
    (P : M → Prop) (Q : V → Prop) (L : Lib M V) : Prop where
  zero : ∀ o, ∃ r, L.zero o = .ok r ∧ mat r = 0 ∧ P r
  one : ∀ o, ∃ r, L.one o = .ok r ∧ mat r = 1 ∧ P r
  copy : ∀ a o, P a → ∃ r, L.copy a o = .ok r ∧ mat r = mat a ∧ P r
  add : ∀ a b o, P a → P b → ∃ r, L.add a b o = .ok r ∧ mat r = mat a + mat b ∧ P r
  mul : ∀ a b o, P a → P b → ∃ r, L.mul a b o = .ok r ∧ mat r = mat a * mat b ∧ P r
  trans : ∀ a o, P a → ∃ r, L.trans a o = .ok r ∧ mat r = (mat a)ᵀ ∧ P r
  inv : ∀ a o, P a → IsUnit (mat a) → ∃ r, L.inv a o = .ok r ∧ mat a * mat r = 1 ∧ P r
  zeroVec : ∀ o, ∃ r, L.zeroVec o = .ok r ∧ vec r = 0 ∧ Q r
  addVec : ∀ x y o, Q x → Q y → ∃ r, L.addVec x y o = .ok r ∧ vec r = vec x + vec y ∧ Q r
  mulVec : ∀ a x o, P a → Q x → ∃ r, L.mulVec a x o = .ok r ∧ vec r = (mat a).mulVec (vec x) ∧ Q r

section
variable {M V : Type} {n : Nat} {mat : M → Matrix (Fin n) (Fin n) (ZMod 2)} {vec : V → Fin n → ZMod 2}
variable {P : M → Prop} {Q : V → Prop} {L : Lib M V}

theorem setM_ok {s : Vars M V} (hP : ∀ k, P (s.mats k)) (hQ : ∀ k, Q (s.vecs k)) {t : Math n} (d : Nat)
    {f : C M} {X : Matrix (Fin n) (Fin n) (ZMod 2)} (h : ∃ r, f = .ok r ∧ mat r = X ∧ P r)
    (ht : t = (s.value mat vec).setM d X) :
    ∃ s', (do pure (s.setM d (← f)) : C (Vars M V)) = .ok s' ∧ s'.value mat vec = t ∧ (∀ k, P (s'.mats k)) ∧
      ∀ k, Q (s'.vecs k) := by
  obtain ⟨r, hr, hX, hp⟩ := h
  refine ⟨s.setM d r, by rw [hr]; rfl, ?_, fun k => ?_, hQ⟩
  · subst ht
    simp only [Vars.value, Vars.setM, Vars.mk.injEq, and_true]
    funext k
    by_cases hk : k = d <;> simp [hk, hX]
  · simp only [Vars.setM]
    by_cases hk : k = d <;> simp [hk, hp, hP]

theorem setV_ok {s : Vars M V} (hP : ∀ k, P (s.mats k)) (hQ : ∀ k, Q (s.vecs k)) {t : Math n} (d : Nat)
    {f : C V} {x : Fin n → ZMod 2} (h : ∃ r, f = .ok r ∧ vec r = x ∧ Q r)
    (ht : t = (s.value mat vec).setV d x) :
    ∃ s', (do pure (s.setV d (← f)) : C (Vars M V)) = .ok s' ∧ s'.value mat vec = t ∧ (∀ k, P (s'.mats k)) ∧
      ∀ k, Q (s'.vecs k) := by
  obtain ⟨r, hr, hX, hp⟩ := h
  refine ⟨s.setV d r, by rw [hr]; rfl, ?_, hP, fun k => ?_⟩
  · subst ht
    simp only [Vars.value, Vars.setV, Vars.mk.injEq, true_and]
    funext k
    by_cases hk : k = d <;> simp [hk, hX]
  · simp only [Vars.setV]
    by_cases hk : k = d <;> simp [hk, hp, hQ]

theorem Stmt.exec_ok (hL : Lawful mat vec P Q L) (c : Stmt) (s : Vars M V) (hP : ∀ k, P (s.mats k))
    (hQ : ∀ k, Q (s.vecs k)) (t : Math n) (h : c.Means (s.value mat vec) t) :
    ∃ s', c.exec L s = .ok s' ∧ s'.value mat vec = t ∧ (∀ k, P (s'.mats k)) ∧ ∀ k, Q (s'.vecs k) := by
  cases c with
  | zero d => exact setM_ok hP hQ d (hL.zero _) h
  | one d => exact setM_ok hP hQ d (hL.one _) h
  | copy d a => exact setM_ok hP hQ d (hL.copy _ _ (hP a)) h
  | add d a b => exact setM_ok hP hQ d (hL.add _ _ _ (hP a) (hP b)) h
  | mul d a b => exact setM_ok hP hQ d (hL.mul _ _ _ (hP a) (hP b)) h
  | trans d a => exact setM_ok hP hQ d (hL.trans _ _ (hP a)) h
  | inv d a =>
    obtain ⟨X, hX, ht⟩ := h
    have hX' : mat (s.mats a) * X = 1 := hX
    have hu : IsUnit (mat (s.mats a)) := ⟨⟨_, X, hX', mul_eq_one_comm.1 hX'⟩, rfl⟩
    obtain ⟨r, hr, h1, hp⟩ := hL.inv (s.mats a) (s.mats d) (hP a) hu
    refine setM_ok hP hQ d ⟨r, hr, ?_, hp⟩ ht
    exact hu.mul_left_cancel (h1.trans hX'.symm)
  | zeroVec d => exact setV_ok hP hQ d (hL.zeroVec _) h
  | addVec d x y => exact setV_ok hP hQ d (hL.addVec _ _ _ (hQ x) (hQ y)) h
  | mulVec d a x => exact setV_ok hP hQ d (hL.mulVec _ _ _ (hP a) (hQ x)) h

theorem exec_ok (hL : Lawful mat vec P Q L) (p : List Stmt) : ∀ (s : Vars M V) (_ : ∀ k, P (s.mats k))
    (_ : ∀ k, Q (s.vecs k)) (t : Math n) (_ : Means p (s.value mat vec) t),
    ∃ s', exec L p s = .ok s' ∧ s'.value mat vec = t ∧ (∀ k, P (s'.mats k)) ∧ ∀ k, Q (s'.vecs k) := by
  induction p with
  | nil => intro s hP hQ t h; exact ⟨s, rfl, h.symm, hP, hQ⟩
  | cons c p ih =>
    intro s hP hQ t ⟨u, hu, ht⟩
    obtain ⟨s1, h1, hv, hP1, hQ1⟩ := c.exec_ok hL s hP hQ u hu
    obtain ⟨s2, h2, h⟩ := ih s1 hP1 hQ1 t (hv ▸ ht)
    exact ⟨s2, by rw [exec, h1]; exact h2, h⟩
end

/-! ### The library, size by size -/

/-- The 4-bit functions. -/
def lib4 (env : Env) : Lib M4 V4 where
  zero := initM4
  one := identityM4
  copy := copyM4
  add := MatAddMatM4
  mul := MatMulMatM4 env
  trans := MattransM4 env
  inv := invsM4
  zeroVec := initV4
  addVec := VecAddVecV4
  mulVec := MatMulVecM4 env

theorem lib4_lawful (env : Env) : Lawful mat4 vec4 CleanM4 Clean4 (lib4 env) where
  zero o := C06_initM4 o
  one o := C06_identityM4 o
  copy a o h := ⟨a, C06_copyM4 a o, rfl, h⟩
  add a b o ha hb := by
    obtain ⟨r, h1, h2, h3⟩ := C05_MatAddMatM4 a b o
    exact ⟨r, h1, h2, h3 ha hb⟩
  mul a b o _ hb := C03_MatMulMatM4 env a b o hb
  trans a o ha := C04_MattransM4 env a o ha
  inv a o _ hu := by
    obtain ⟨r, h1, h2, _, h3⟩ := C13_invsM4 a o hu
    exact ⟨r, h1, h2, h3⟩
  zeroVec o := C06_initV4 o
  addVec x y o hx hy := by
    obtain ⟨r, h1, h2, h3⟩ := C05_VecAddVecV4 x y o
    exact ⟨r, h1, h2, h3 hx hy⟩
  mulVec a x o _ _ := C01_MatMulVecM4 env a x o

/-- C41 for 4 bits: the variables must hold clean objects in the beginning; then they are clean at the end. -/
theorem C41_programs4 (env : Env) (p : List Stmt) (s : Vars M4 V4) (hM : ∀ k, CleanM4 (s.mats k))
    (hV : ∀ k, Clean4 (s.vecs k)) (t : Math 4) (h : Means p (s.value mat4 vec4) t) :
    ∃ s', exec (lib4 env) p s = .ok s' ∧ s'.value mat4 vec4 = t ∧ (∀ k, CleanM4 (s'.mats k)) ∧
      ∀ k, Clean4 (s'.vecs k) :=
  exec_ok (lib4_lawful env) p s hM hV t h

/-- The 8-bit functions. -/
def lib8 (env : Env) : Lib M8 V8 where
  zero := initM8
  one := identityM8
  copy := copyM8
  add := MatAddMatM8
  mul := MatMulMatM8 env
  trans := MattransM8 env
  inv := invsM8
  zeroVec := initV8
  addVec := VecAddVecV8
  mulVec := MatMulVecM8 env

theorem lib8_lawful (env : Env) : Lawful mat8 vec8 (fun _ => True) (fun _ => True) (lib8 env) where
  zero o := (by obtain ⟨r, h1, h2⟩ := C06_initM8 o; exact ⟨r, h1, h2, trivial⟩)
  one o := (by obtain ⟨r, h1, h2⟩ := C06_identityM8 o; exact ⟨r, h1, h2, trivial⟩)
  copy a o _ := ⟨a, C06_copyM8 a o, rfl, trivial⟩
  add a b o _ _ := (by obtain ⟨r, h1, h2⟩ := C05_MatAddMatM8 a b o; exact ⟨r, h1, h2, trivial⟩)
  mul a b o _ _ := (by obtain ⟨r, h1, h2⟩ := C03_MatMulMatM8 env a b o; exact ⟨r, h1, h2, trivial⟩)
  trans a o _ := (by obtain ⟨r, h1, h2⟩ := C04_MattransM8 env a o; exact ⟨r, h1, h2, trivial⟩)
  inv a o _ hu := by
    obtain ⟨r, h1, h2, _⟩ := C13_invsM8 a o hu
    exact ⟨r, h1, h2, trivial⟩
  zeroVec o := (by obtain ⟨r, h1, h2⟩ := C06_initV8 o; exact ⟨r, h1, h2, trivial⟩)
  addVec x y o _ _ := (by obtain ⟨r, h1, h2⟩ := C05_VecAddVecV8 x y o; exact ⟨r, h1, h2, trivial⟩)
  mulVec a x o _ _ := (by obtain ⟨r, h1, h2⟩ := C01_MatMulVecM8 env a x o; exact ⟨r, h1, h2, trivial⟩)

/-- C41: every program computes what it means. -/
theorem C41_programs8 (env : Env) (p : List Stmt) (s : Vars M8 V8) (t : Math 8)
    (h : Means p (s.value mat8 vec8) t) :
    ∃ s', exec (lib8 env) p s = .ok s' ∧ s'.value mat8 vec8 = t := by
  obtain ⟨s', h1, h2, _⟩ := exec_ok (lib8_lawful env) p s (fun _ => trivial) (fun _ => trivial) t h
  exact ⟨s', h1, h2⟩

/-- The 16-bit functions. -/
def lib16 (env : Env) : Lib M16 V16 where
  zero := initM16
  one := identityM16
  copy := copyM16
  add := MatAddMatM16
  mul := MatMulMatM16 env
  trans := MattransM16 env
  inv := invsM16
  zeroVec := initV16
  addVec := VecAddVecV16
  mulVec := MatMulVecM16 env

theorem lib16_lawful (env : Env) : Lawful mat16 vec16 (fun _ => True) (fun _ => True) (lib16 env) where
  zero o := (by obtain ⟨r, h1, h2⟩ := C06_initM16 o; exact ⟨r, h1, h2, trivial⟩)
  one o := (by obtain ⟨r, h1, h2⟩ := C06_identityM16 o; exact ⟨r, h1, h2, trivial⟩)
  copy a o _ := ⟨a, C06_copyM16 a o, rfl, trivial⟩
  add a b o _ _ := (by obtain ⟨r, h1, h2⟩ := C05_MatAddMatM16 a b o; exact ⟨r, h1, h2, trivial⟩)
  mul a b o _ _ := (by obtain ⟨r, h1, h2⟩ := C03_MatMulMatM16 env a b o; exact ⟨r, h1, h2, trivial⟩)
  trans a o _ := (by obtain ⟨r, h1, h2⟩ := C04_MattransM16 env a o; exact ⟨r, h1, h2, trivial⟩)
  inv a o _ hu := by
    obtain ⟨r, h1, h2, _⟩ := C13_invsM16 a o hu
    exact ⟨r, h1, h2, trivial⟩
  zeroVec o := (by obtain ⟨r, h1, h2⟩ := C06_initV16 o; exact ⟨r, h1, h2, trivial⟩)
  addVec x y o _ _ := (by obtain ⟨r, h1, h2⟩ := C05_VecAddVecV16 x y o; exact ⟨r, h1, h2, trivial⟩)
  mulVec a x o _ _ := (by obtain ⟨r, h1, h2⟩ := C01_MatMulVecM16 env a x o; exact ⟨r, h1, h2, trivial⟩)

/-- C41: every program computes what it means. -/
theorem C41_programs16 (env : Env) (p : List Stmt) (s : Vars M16 V16) (t : Math 16)
    (h : Means p (s.value mat16 vec16) t) :
    ∃ s', exec (lib16 env) p s = .ok s' ∧ s'.value mat16 vec16 = t := by
  obtain ⟨s', h1, h2, _⟩ := exec_ok (lib16_lawful env) p s (fun _ => trivial) (fun _ => trivial) t h
  exact ⟨s', h1, h2⟩

/-- The 32-bit functions. -/
def lib32 (env : Env) : Lib M32 V32 where
  zero := initM32
  one := identityM32
  copy := copyM32
  add := MatAddMatM32
  mul := MatMulMatM32 env
  trans := MattransM32 env
  inv := invsM32
  zeroVec := initV32
  addVec := VecAddVecV32
  mulVec := MatMulVecM32 env

theorem lib32_lawful (env : Env) : Lawful mat32 vec32 (fun _ => True) (fun _ => True) (lib32 env) where
  zero o := (by obtain ⟨r, h1, h2⟩ := C06_initM32 o; exact ⟨r, h1, h2, trivial⟩)
  one o := (by obtain ⟨r, h1, h2⟩ := C06_identityM32 o; exact ⟨r, h1, h2, trivial⟩)
  copy a o _ := ⟨a, C06_copyM32 a o, rfl, trivial⟩
  add a b o _ _ := (by obtain ⟨r, h1, h2⟩ := C05_MatAddMatM32 a b o; exact ⟨r, h1, h2, trivial⟩)
  mul a b o _ _ := (by obtain ⟨r, h1, h2⟩ := C03_MatMulMatM32 env a b o; exact ⟨r, h1, h2, trivial⟩)
  trans a o _ := (by obtain ⟨r, h1, h2⟩ := C04_MattransM32 env a o; exact ⟨r, h1, h2, trivial⟩)
  inv a o _ hu := by
    obtain ⟨r, h1, h2, _⟩ := C13_invsM32 a o hu
    exact ⟨r, h1, h2, trivial⟩
  zeroVec o := (by obtain ⟨r, h1, h2⟩ := C06_initV32 o; exact ⟨r, h1, h2, trivial⟩)
  addVec x y o _ _ := (by obtain ⟨r, h1, h2⟩ := C05_VecAddVecV32 x y o; exact ⟨r, h1, h2, trivial⟩)
  mulVec a x o _ _ := (by obtain ⟨r, h1, h2⟩ := C01_MatMulVecM32 env a x o; exact ⟨r, h1, h2, trivial⟩)

/-- C41: every program computes what it means. -/
theorem C41_programs32 (env : Env) (p : List Stmt) (s : Vars M32 V32) (t : Math 32)
    (h : Means p (s.value mat32 vec32) t) :
    ∃ s', exec (lib32 env) p s = .ok s' ∧ s'.value mat32 vec32 = t := by
  obtain ⟨s', h1, h2, _⟩ := exec_ok (lib32_lawful env) p s (fun _ => trivial) (fun _ => trivial) t h
  exact ⟨s', h1, h2⟩

/-- The 64-bit functions. -/
def lib64 (env : Env) : Lib M64 V64 where
  zero := initM64
  one := identityM64
  copy := copyM64
  add := MatAddMatM64
  mul := MatMulMatM64 env
  trans := MattransM64 env
  inv := invsM64
  zeroVec := initV64
  addVec := VecAddVecV64
  mulVec := MatMulVecM64 env

theorem lib64_lawful (env : Env) : Lawful mat64 vec64 (fun _ => True) (fun _ => True) (lib64 env) where
  zero o := (by obtain ⟨r, h1, h2⟩ := C06_initM64 o; exact ⟨r, h1, h2, trivial⟩)
  one o := (by obtain ⟨r, h1, h2⟩ := C06_identityM64 o; exact ⟨r, h1, h2, trivial⟩)
  copy a o _ := ⟨a, C06_copyM64 a o, rfl, trivial⟩
  add a b o _ _ := (by obtain ⟨r, h1, h2⟩ := C05_MatAddMatM64 a b o; exact ⟨r, h1, h2, trivial⟩)
  mul a b o _ _ := (by obtain ⟨r, h1, h2⟩ := C03_MatMulMatM64 env a b o; exact ⟨r, h1, h2, trivial⟩)
  trans a o _ := (by obtain ⟨r, h1, h2⟩ := C04_MattransM64 env a o; exact ⟨r, h1, h2, trivial⟩)
  inv a o _ hu := by
    obtain ⟨r, h1, h2, _⟩ := C13_invsM64 a o hu
    exact ⟨r, h1, h2, trivial⟩
  zeroVec o := (by obtain ⟨r, h1, h2⟩ := C06_initV64 o; exact ⟨r, h1, h2, trivial⟩)
  addVec x y o _ _ := (by obtain ⟨r, h1, h2⟩ := C05_VecAddVecV64 x y o; exact ⟨r, h1, h2, trivial⟩)
  mulVec a x o _ _ := (by obtain ⟨r, h1, h2⟩ := C01_MatMulVecM64 env a x o; exact ⟨r, h1, h2, trivial⟩)

/-- C41: every program computes what it means. -/
theorem C41_programs64 (env : Env) (p : List Stmt) (s : Vars M64 V64) (t : Math 64)
    (h : Means p (s.value mat64 vec64) t) :
    ∃ s', exec (lib64 env) p s = .ok s' ∧ s'.value mat64 vec64 = t := by
  obtain ⟨s', h1, h2, _⟩ := exec_ok (lib64_lawful env) p s (fun _ => trivial) (fun _ => trivial) t h
  exact ⟨s', h1, h2⟩

/-- The 128-bit functions. -/
def lib128 (env : Env) : Lib M128 V128 where
  zero := initM128
  one := identityM128
  copy := copyM128
  add := MatAddMatM128
  mul := MatMulMatM128 env
  trans := MattransM128 env
  inv := invsM128
  zeroVec := initV128
  addVec := VecAddVecV128
  mulVec := MatMulVecM128 env

theorem lib128_lawful (env : Env) : Lawful mat128 vec128 (fun _ => True) (fun _ => True) (lib128 env) where
  zero o := (by obtain ⟨r, h1, h2⟩ := C06_initM128 o; exact ⟨r, h1, h2, trivial⟩)
  one o := (by obtain ⟨r, h1, h2⟩ := C06_identityM128 o; exact ⟨r, h1, h2, trivial⟩)
  copy a o _ := ⟨a, C06_copyM128 a o, rfl, trivial⟩
  add a b o _ _ := (by obtain ⟨r, h1, h2⟩ := C05_MatAddMatM128 a b o; exact ⟨r, h1, h2, trivial⟩)
  mul a b o _ _ := (by obtain ⟨r, h1, h2⟩ := C03_MatMulMatM128 env a b o; exact ⟨r, h1, h2, trivial⟩)
  trans a o _ := (by obtain ⟨r, h1, h2⟩ := C04_MattransM128 env a o; exact ⟨r, h1, h2, trivial⟩)
  inv a o _ hu := by
    obtain ⟨r, h1, h2, _⟩ := C13_invsM128 a o hu
    exact ⟨r, h1, h2, trivial⟩
  zeroVec o := (by obtain ⟨r, h1, h2⟩ := C06_initV128 o; exact ⟨r, h1, h2, trivial⟩)
  addVec x y o _ _ := (by obtain ⟨r, h1, h2⟩ := C05_VecAddVecV128 x y o; exact ⟨r, h1, h2, trivial⟩)
  mulVec a x o _ _ := (by obtain ⟨r, h1, h2⟩ := C01_MatMulVecM128 env a x o; exact ⟨r, h1, h2, trivial⟩)

/-- C41: every program computes what it means. -/
theorem C41_programs128 (env : Env) (p : List Stmt) (s : Vars M128 V128) (t : Math 128)
    (h : Means p (s.value mat128 vec128) t) :
    ∃ s', exec (lib128 env) p s = .ok s' ∧ s'.value mat128 vec128 = t := by
  obtain ⟨s', h1, h2, _⟩ := exec_ok (lib128_lawful env) p s (fun _ => trivial) (fun _ => trivial) t h
  exact ⟨s', h1, h2⟩

/-- The 256-bit functions. -/
def lib256 (env : Env) : Lib M256 V256 where
  zero := initM256
  one := identityM256
  copy := copyM256
  add := MatAddMatM256
  mul := MatMulMatM256 env
  trans := MattransM256 env
  inv := invsM256
  zeroVec := initV256
  addVec := VecAddVecV256
  mulVec := MatMulVecM256 env

theorem lib256_lawful (env : Env) : Lawful mat256 vec256 (fun _ => True) (fun _ => True) (lib256 env) where
  zero o := (by obtain ⟨r, h1, h2⟩ := C06_initM256 o; exact ⟨r, h1, h2, trivial⟩)
  one o := (by obtain ⟨r, h1, h2⟩ := C06_identityM256 o; exact ⟨r, h1, h2, trivial⟩)
  copy a o _ := ⟨a, C06_copyM256 a o, rfl, trivial⟩
  add a b o _ _ := (by obtain ⟨r, h1, h2⟩ := C05_MatAddMatM256 a b o; exact ⟨r, h1, h2, trivial⟩)
  mul a b o _ _ := (by obtain ⟨r, h1, h2⟩ := C03_MatMulMatM256 env a b o; exact ⟨r, h1, h2, trivial⟩)
  trans a o _ := (by obtain ⟨r, h1, h2⟩ := C04_MattransM256 env a o; exact ⟨r, h1, h2, trivial⟩)
  inv a o _ hu := by
    obtain ⟨r, h1, h2, _⟩ := C13_invsM256 a o hu
    exact ⟨r, h1, h2, trivial⟩
  zeroVec o := (by obtain ⟨r, h1, h2⟩ := C06_initV256 o; exact ⟨r, h1, h2, trivial⟩)
  addVec x y o _ _ := (by obtain ⟨r, h1, h2⟩ := C05_VecAddVecV256 x y o; exact ⟨r, h1, h2, trivial⟩)
  mulVec a x o _ _ := (by obtain ⟨r, h1, h2⟩ := C01_MatMulVecM256 env a x o; exact ⟨r, h1, h2, trivial⟩)

/-- C41: every program computes what it means. -/
theorem C41_programs256 (env : Env) (p : List Stmt) (s : Vars M256 V256) (t : Math 256)
    (h : Means p (s.value mat256 vec256) t) :
    ∃ s', exec (lib256 env) p s = .ok s' ∧ s'.value mat256 vec256 = t := by
  obtain ⟨s', h1, h2, _⟩ := exec_ok (lib256_lawful env) p s (fun _ => trivial) (fun _ => trivial) t h
  exact ⟨s', h1, h2⟩

/-- A program with heavy aliasing: variable 0 is squared in place, inverted in place and multiplied with its own
square root; the result is the inverse of the original matrix, whatever was in variable 0. -/
def exProg : List Stmt := [.copy 1 0, .mul 0 0 0, .inv 0 0, .mul 0 0 1, .mulVec 0 0 0]

example : (exec (lib8 exEnv) exProg ⟨fun _ => exA8, fun _ => exX8⟩).toOption.map (fun s => (s.mats 0, s.vecs 0)) =
    (invsM8 exA8 exB8).toOption.bind fun B => (MatMulVecM8 exEnv B exX8 0).toOption.map fun y => (B, y) := by
  decide +kernel

/-- The hypothesis of C41 is satisfiable for this program: for every invertible start value. -/
example (n : Nat) (s : Math n) (hA : IsUnit (s.mats 0)) : ∃ t, Means exProg s t ∧ s.mats 0 * t.mats 0 = 1 := by
  obtain ⟨⟨A, X, hX, hX'⟩, hA⟩ := hA
  simp only at hA
  refine ⟨_, ⟨_, rfl, _, rfl, _, ⟨X * X, ?_, rfl⟩, _, rfl, _, rfl, rfl⟩, ?_⟩
  · simp only [Vars.setM, if_true, ← hA, ite_self]
    rw [Matrix.mul_assoc, ← Matrix.mul_assoc A X X, hX, Matrix.one_mul, hX]
  · simp only [Vars.setM, Vars.setV, if_true, ← hA, ite_self, Nat.one_ne_zero, if_false]
    rw [Matrix.mul_assoc, hX', Matrix.mul_one, hX]

end WB
