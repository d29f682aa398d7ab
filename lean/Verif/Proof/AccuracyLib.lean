import Verif.Proof.Accuracy
import Verif.Prop.C01
import Verif.Prop.C03
import Verif.Prop.C06
import Verif.Prop.C07
import Verif.Prop.C18
import Verif.Prop.C20

/-!
# The accuracy test: the functions of each width (helper lemmas)

Generated by `tools/gen_c60.py`.
-/
namespace WB.accuracy
open Matrix

theorem clean4_of_shift {x y : BitVec 8} (h : y >>> 4 = x >>> 4) (hx : Clean4 x) : Clean4 y := by
  unfold Clean4 at *
  have := congrArg BitVec.toNat h
  simp only [BitVec.toNat_ushiftRight, Nat.shiftRight_eq_div_pow] at this
  omega

theorem good4 (env : Env) : Good (lib4 env) mat4 vec4 CleanM4 Clean4 where
  injM := fun A B hA hB h => mat4_inj hA hB h
  injV := fun x y hx hy h => vec4_inj hx hy h
  initM := fun A => C06_initM4 A
  identityM := fun A => C06_identityM4 A
  setbitM := fun A i hA => by
    obtain ⟨B, h1, h2, h3⟩ := C09_setbitM4 A i i 1 (Or.inr rfl)
    exact ⟨B, h1, fun r c => by rw [h2]; simp, fun r => clean4_of_shift (h3 r) (hA r)⟩
  readbitM := fun A i => C09_readbitM4 A i i
  flipbitM := fun A i hA => by
    obtain ⟨B, h1, h2, h3⟩ := C09_flipbitM4 A i i
    exact ⟨B, h1, h2, fun r => clean4_of_shift (h3 r) (hA r)⟩
  isequalM := fun A => (C07_isequalM4 A A).trans (by rw [if_pos rfl])
  isequalV := fun x => (C08_isequalV4 x x).trans (by rw [if_pos rfl])
  randM := fun A w => (randM4_ok A w).mono fun _ _ h => ⟨h.1, h.2.2.2.2⟩
  randV := fun x w => (randV4_ok x w).mono fun _ _ h => ⟨h.1, h.2.2.2.2⟩
  gen := fun A0 B0 w => by
    obtain ⟨A, B, w', h, h1, h2, h3, h4, h5, -, hcA, hcB, hw⟩ := C15_genMatpairM4 env A0 B0 w
    exact ⟨((A, B), w'), h, h1, h2, h3, h4, h5, hcA, hcB, hw.2.2.2⟩
  mulV := fun A x z => C01_MatMulVecM4 env A x z
  mulM := fun A B Z hB => C03_MatMulMatM4 env A B Z hB

theorem good8 (env : Env) : Good (lib8 env) mat8 vec8 (fun _ => True) (fun _ => True) where
  injM := fun A B _ _ h => mat8_inj h
  injV := fun x y _ _ h => vec8_inj h
  initM := fun A => by obtain ⟨B, h1, h2⟩ := C06_initM8 A; exact ⟨B, h1, h2, trivial⟩
  identityM := fun A => by obtain ⟨B, h1, h2⟩ := C06_identityM8 A; exact ⟨B, h1, h2, trivial⟩
  setbitM := fun A i _ => by
    obtain ⟨B, h1, h2⟩ := C09_setbitM8 A i i 1 (Or.inr rfl)
    exact ⟨B, h1, fun r c => by rw [h2]; simp, trivial⟩
  readbitM := fun A i => C09_readbitM8 A i i
  flipbitM := fun A i _ => by
    obtain ⟨B, h1, h2⟩ := C09_flipbitM8 A i i
    exact ⟨B, h1, h2, trivial⟩
  isequalM := fun A => (C07_isequalM8 A A).trans (by rw [if_pos rfl])
  isequalV := fun x => (C08_isequalV8 x x).trans (by rw [if_pos rfl])
  randM := fun A w => (randM8_ok A w).mono fun _ _ h => ⟨trivial, h.2.2.2⟩
  randV := fun x w => (randV8_ok x w).mono fun _ _ h => ⟨trivial, h.2.2.2⟩
  gen := fun A0 B0 w => by
    obtain ⟨A, B, w', h, h1, h2, h3, h4, h5, -, hw⟩ := C15_genMatpairM8 env A0 B0 w
    exact ⟨((A, B), w'), h, h1, h2, h3, h4, h5, trivial, trivial, hw.2.2.2⟩
  mulV := fun A x z => by obtain ⟨y, h1, h2⟩ := C01_MatMulVecM8 env A x z; exact ⟨y, h1, h2, trivial⟩
  mulM := fun A B Z _ => by obtain ⟨D, h1, h2⟩ := C03_MatMulMatM8 env A B Z; exact ⟨D, h1, h2, trivial⟩

theorem good16 (env : Env) : Good (lib16 env) mat16 vec16 (fun _ => True) (fun _ => True) where
  injM := fun A B _ _ h => mat16_inj h
  injV := fun x y _ _ h => vec16_inj h
  initM := fun A => by obtain ⟨B, h1, h2⟩ := C06_initM16 A; exact ⟨B, h1, h2, trivial⟩
  identityM := fun A => by obtain ⟨B, h1, h2⟩ := C06_identityM16 A; exact ⟨B, h1, h2, trivial⟩
  setbitM := fun A i _ => by
    obtain ⟨B, h1, h2⟩ := C09_setbitM16 A i i 1 (Or.inr rfl)
    exact ⟨B, h1, fun r c => by rw [h2]; simp, trivial⟩
  readbitM := fun A i => C09_readbitM16 A i i
  flipbitM := fun A i _ => by
    obtain ⟨B, h1, h2⟩ := C09_flipbitM16 A i i
    exact ⟨B, h1, h2, trivial⟩
  isequalM := fun A => (C07_isequalM16 A A).trans (by rw [if_pos rfl])
  isequalV := fun x => (C08_isequalV16 x x).trans (by rw [if_pos rfl])
  randM := fun A w => (randM16_ok A w).mono fun _ _ h => ⟨trivial, h.2.2.2⟩
  randV := fun x w => (randV16_ok x w).mono fun _ _ h => ⟨trivial, h.2.2.2⟩
  gen := fun A0 B0 w => by
    obtain ⟨A, B, w', h, h1, h2, h3, h4, h5, -, hw⟩ := C15_genMatpairM16 env A0 B0 w
    exact ⟨((A, B), w'), h, h1, h2, h3, h4, h5, trivial, trivial, hw.2.2.2⟩
  mulV := fun A x z => by obtain ⟨y, h1, h2⟩ := C01_MatMulVecM16 env A x z; exact ⟨y, h1, h2, trivial⟩
  mulM := fun A B Z _ => by obtain ⟨D, h1, h2⟩ := C03_MatMulMatM16 env A B Z; exact ⟨D, h1, h2, trivial⟩

theorem good32 (env : Env) : Good (lib32 env) mat32 vec32 (fun _ => True) (fun _ => True) where
  injM := fun A B _ _ h => mat32_inj h
  injV := fun x y _ _ h => vec32_inj h
  initM := fun A => by obtain ⟨B, h1, h2⟩ := C06_initM32 A; exact ⟨B, h1, h2, trivial⟩
  identityM := fun A => by obtain ⟨B, h1, h2⟩ := C06_identityM32 A; exact ⟨B, h1, h2, trivial⟩
  setbitM := fun A i _ => by
    obtain ⟨B, h1, h2⟩ := C09_setbitM32 A i i 1 (Or.inr rfl)
    exact ⟨B, h1, fun r c => by rw [h2]; simp, trivial⟩
  readbitM := fun A i => C09_readbitM32 A i i
  flipbitM := fun A i _ => by
    obtain ⟨B, h1, h2⟩ := C09_flipbitM32 A i i
    exact ⟨B, h1, h2, trivial⟩
  isequalM := fun A => (C07_isequalM32 A A).trans (by rw [if_pos rfl])
  isequalV := fun x => (C08_isequalV32 x x).trans (by rw [if_pos rfl])
  randM := fun A w => (randM32_ok A w).mono fun _ _ h => ⟨trivial, h.2.2.2⟩
  randV := fun x w => (randV32_ok x w).mono fun _ _ h => ⟨trivial, h.2.2.2⟩
  gen := fun A0 B0 w => by
    obtain ⟨A, B, w', h, h1, h2, h3, h4, h5, -, hw⟩ := C15_genMatpairM32 env A0 B0 w
    exact ⟨((A, B), w'), h, h1, h2, h3, h4, h5, trivial, trivial, hw.2.2.2⟩
  mulV := fun A x z => by obtain ⟨y, h1, h2⟩ := C01_MatMulVecM32 env A x z; exact ⟨y, h1, h2, trivial⟩
  mulM := fun A B Z _ => by obtain ⟨D, h1, h2⟩ := C03_MatMulMatM32 env A B Z; exact ⟨D, h1, h2, trivial⟩

theorem good64 (env : Env) : Good (lib64 env) mat64 vec64 (fun _ => True) (fun _ => True) where
  injM := fun A B _ _ h => mat64_inj h
  injV := fun x y _ _ h => vec64_inj h
  initM := fun A => by obtain ⟨B, h1, h2⟩ := C06_initM64 A; exact ⟨B, h1, h2, trivial⟩
  identityM := fun A => by obtain ⟨B, h1, h2⟩ := C06_identityM64 A; exact ⟨B, h1, h2, trivial⟩
  setbitM := fun A i _ => by
    obtain ⟨B, h1, h2⟩ := C09_setbitM64 A i i 1 (Or.inr rfl)
    exact ⟨B, h1, fun r c => by rw [h2]; simp, trivial⟩
  readbitM := fun A i => C09_readbitM64 A i i
  flipbitM := fun A i _ => by
    obtain ⟨B, h1, h2⟩ := C09_flipbitM64 A i i
    exact ⟨B, h1, h2, trivial⟩
  isequalM := fun A => (C07_isequalM64 A A).trans (by rw [if_pos rfl])
  isequalV := fun x => (C08_isequalV64 x x).trans (by rw [if_pos rfl])
  randM := fun A w => (randM64_ok env A w).mono fun _ _ h => ⟨trivial, h.2.2.2⟩
  randV := fun x w => (randV64_ok env x w).mono fun _ w' h => ⟨trivial, by obtain ⟨k, rfl⟩ := h; rfl⟩
  gen := fun A0 B0 w => by
    obtain ⟨A, B, w', h, h1, h2, h3, h4, h5, -, hw⟩ := C15_genMatpairM64 env A0 B0 w
    exact ⟨((A, B), w'), h, h1, h2, h3, h4, h5, trivial, trivial, hw.2.2.2⟩
  mulV := fun A x z => by obtain ⟨y, h1, h2⟩ := C01_MatMulVecM64 env A x z; exact ⟨y, h1, h2, trivial⟩
  mulM := fun A B Z _ => by obtain ⟨D, h1, h2⟩ := C03_MatMulMatM64 env A B Z; exact ⟨D, h1, h2, trivial⟩

theorem good128 (env : Env) : Good (lib128 env) mat128 vec128 (fun _ => True) (fun _ => True) where
  injM := fun A B _ _ h => mat128_inj h
  injV := fun x y _ _ h => vec128_inj h
  initM := fun A => by obtain ⟨B, h1, h2⟩ := C06_initM128 A; exact ⟨B, h1, h2, trivial⟩
  identityM := fun A => by obtain ⟨B, h1, h2⟩ := C06_identityM128 A; exact ⟨B, h1, h2, trivial⟩
  setbitM := fun A i _ => by
    obtain ⟨B, h1, h2⟩ := C09_setbitM128 A i i 1 (Or.inr rfl)
    exact ⟨B, h1, fun r c => by rw [h2]; simp, trivial⟩
  readbitM := fun A i => C09_readbitM128 A i i
  flipbitM := fun A i _ => by
    obtain ⟨B, h1, h2⟩ := C09_flipbitM128 A i i
    exact ⟨B, h1, h2, trivial⟩
  isequalM := fun A => (C07_isequalM128 A A).trans (by rw [if_pos rfl])
  isequalV := fun x => (C08_isequalV128 x x).trans (by rw [if_pos rfl])
  randM := fun A w => (randM128_ok env A w).mono fun _ _ h => ⟨trivial, h.2.2.2⟩
  randV := fun x w => (randV128_ok env x w).mono fun _ _ h => ⟨trivial, h.2.2.2⟩
  gen := fun A0 B0 w => by
    obtain ⟨A, B, w', h, h1, h2, h3, h4, h5, -, hw⟩ := C15_genMatpairM128 env A0 B0 w
    exact ⟨((A, B), w'), h, h1, h2, h3, h4, h5, trivial, trivial, hw.2.2.2⟩
  mulV := fun A x z => by obtain ⟨y, h1, h2⟩ := C01_MatMulVecM128 env A x z; exact ⟨y, h1, h2, trivial⟩
  mulM := fun A B Z _ => by obtain ⟨D, h1, h2⟩ := C03_MatMulMatM128 env A B Z; exact ⟨D, h1, h2, trivial⟩

theorem good256 (env : Env) : Good (lib256 env) mat256 vec256 (fun _ => True) (fun _ => True) where
  injM := fun A B _ _ h => mat256_inj h
  injV := fun x y _ _ h => vec256_inj h
  initM := fun A => by obtain ⟨B, h1, h2⟩ := C06_initM256 A; exact ⟨B, h1, h2, trivial⟩
  identityM := fun A => by obtain ⟨B, h1, h2⟩ := C06_identityM256 A; exact ⟨B, h1, h2, trivial⟩
  setbitM := fun A i _ => by
    obtain ⟨B, h1, h2⟩ := C09_setbitM256 A i i 1 (Or.inr rfl)
    exact ⟨B, h1, fun r c => by rw [h2]; simp, trivial⟩
  readbitM := fun A i => C09_readbitM256 A i i
  flipbitM := fun A i _ => by
    obtain ⟨B, h1, h2⟩ := C09_flipbitM256 A i i
    exact ⟨B, h1, h2, trivial⟩
  isequalM := fun A => (C07_isequalM256 A A).trans (by rw [if_pos rfl])
  isequalV := fun x => (C08_isequalV256_partial x x).trans (by rw [if_pos ⟨rfl, rfl⟩])
  randM := fun A w => (randM256_ok env A w).mono fun _ _ h => ⟨trivial, h.2.2.2⟩
  randV := fun x w => (randV256_ok env x w).mono fun _ _ h => ⟨trivial, h.2.2.2⟩
  gen := fun A0 B0 w => by
    obtain ⟨A, B, w', h, h1, h2, h3, h4, h5, -, hw⟩ := C15_genMatpairM256 env A0 B0 w
    exact ⟨((A, B), w'), h, h1, h2, h3, h4, h5, trivial, trivial, hw.2.2.2⟩
  mulV := fun A x z => by obtain ⟨y, h1, h2⟩ := C01_MatMulVecM256 env A x z; exact ⟨y, h1, h2, trivial⟩
  mulM := fun A B Z _ => by obtain ⟨D, h1, h2⟩ := C03_MatMulMatM256 env A B Z; exact ⟨D, h1, h2, trivial⟩

theorem num4 (env : Env) (A : M4) (x : V4) : ∃ y, MatMulNumM4 env A x = .ok y ∧
    vec4 y = (mat4 A).mulVec (vec4 x) ∧ Clean4 y := by
  obtain ⟨y, h1, h2⟩ := MatMulNumM4_ok env A x
  exact ⟨y, h1, h2.1, h2.2⟩

theorem num8 (env : Env) (A : M8) (x : V8) : ∃ y, MatMulNumM8 env A x = .ok y ∧
    vec8 y = (mat8 A).mulVec (vec8 x) ∧ True := by
  obtain ⟨y, h1, h2⟩ := MatMulNumM8_ok env A x
  exact ⟨y, h1, h2, trivial⟩

theorem num16 (env : Env) (A : M16) (x : V16) : ∃ y, MatMulNumM16 env A x = .ok y ∧
    vec16 y = (mat16 A).mulVec (vec16 x) ∧ True := by
  obtain ⟨y, h1, h2⟩ := MatMulNumM16_ok env A x
  exact ⟨y, h1, h2, trivial⟩

theorem num32 (env : Env) (A : M32) (x : V32) : ∃ y, MatMulNumM32 env A x = .ok y ∧
    vec32 y = (mat32 A).mulVec (vec32 x) ∧ True := by
  obtain ⟨y, h1, h2⟩ := MatMulNumM32_ok env A x
  exact ⟨y, h1, h2, trivial⟩

theorem num64 (env : Env) (A : M64) (x : V64) : ∃ y, MatMulNumM64 env A x = .ok y ∧
    vec64 y = (mat64 A).mulVec (vec64 x) ∧ True := by
  obtain ⟨y, h1, h2⟩ := MatMulNumM64_ok env A x
  exact ⟨y, h1, h2, trivial⟩

theorem goodA4 (env : Env) : GoodA (affLib4 env) (fun f => CleanM4 f.Mat) Clean4 where
  gen := fun f0 g0 w => by
    obtain ⟨⟨⟨f, g⟩, w'⟩, h, -, -, hcf, hcg, -, -, hw⟩ := genaffinepairM4_ok env f0 g0 w
    obtain ⟨f', g', w'', h', h''⟩ := C18_genaffinepairM4 env f0 g0 w
    have e := h.symm.trans h'
    simp only [Except.ok.injEq, Prod.mk.injEq] at e
    obtain ⟨⟨rfl, rfl⟩, rfl⟩ := e
    exact ⟨((f, g), w'), h, hcf, hcg, fun x z1 z2 hx => (h'' x hx).1, hw.2.2.2⟩
  mix := fun f g m _ hg => by
    obtain ⟨M, hM, H⟩ := C19_affinemixM4 env f g m hg
    refine ⟨M, hM, ?_⟩
    intro x y z1 z2 z3 z h1 h2
    obtain ⟨y', z', h1', h2', h3'⟩ := H x
    have e1 := h1.symm.trans h1'
    simp only [Except.ok.injEq] at e1
    subst e1
    have e2 := h2.symm.trans h2'
    simp only [Except.ok.injEq] at e2
    subst e2
    exact h3'

theorem goodA8 (env : Env) : GoodA (affLib8 env) (fun _ => True) (fun _ => True) where
  gen := fun f0 g0 w => by
    obtain ⟨⟨⟨f, g⟩, w'⟩, h, -, -, hw⟩ := genaffinepairM8_ok env f0 g0 w
    obtain ⟨f', g', w'', h', h''⟩ := C18_genaffinepairM8 env f0 g0 w
    have e := h.symm.trans h'
    simp only [Except.ok.injEq, Prod.mk.injEq] at e
    obtain ⟨⟨rfl, rfl⟩, rfl⟩ := e
    exact ⟨((f, g), w'), h, trivial, trivial, fun x z1 z2 hx => (h'' x).1, hw.2.2.2⟩
  mix := fun f g m _ _ => by
    obtain ⟨M, hM, H⟩ := C19_affinemixM8 env f g m
    refine ⟨M, hM, ?_⟩
    intro x y z1 z2 z3 z h1 h2
    obtain ⟨y', z', h1', h2', h3'⟩ := H x
    have e1 := h1.symm.trans h1'
    simp only [Except.ok.injEq] at e1
    subst e1
    have e2 := h2.symm.trans h2'
    simp only [Except.ok.injEq] at e2
    subst e2
    exact h3'

theorem goodA16 (env : Env) : GoodA (affLib16 env) (fun _ => True) (fun _ => True) where
  gen := fun f0 g0 w => by
    obtain ⟨⟨⟨f, g⟩, w'⟩, h, -, -, hw⟩ := genaffinepairM16_ok env f0 g0 w
    obtain ⟨f', g', w'', h', h''⟩ := C18_genaffinepairM16 env f0 g0 w
    have e := h.symm.trans h'
    simp only [Except.ok.injEq, Prod.mk.injEq] at e
    obtain ⟨⟨rfl, rfl⟩, rfl⟩ := e
    exact ⟨((f, g), w'), h, trivial, trivial, fun x z1 z2 hx => (h'' x).1, hw.2.2.2⟩
  mix := fun f g m _ _ => by
    obtain ⟨M, hM, H⟩ := C19_affinemixM16 env f g m
    refine ⟨M, hM, ?_⟩
    intro x y z1 z2 z3 z h1 h2
    obtain ⟨y', z', h1', h2', h3'⟩ := H x
    have e1 := h1.symm.trans h1'
    simp only [Except.ok.injEq] at e1
    subst e1
    have e2 := h2.symm.trans h2'
    simp only [Except.ok.injEq] at e2
    subst e2
    exact h3'

theorem goodA32 (env : Env) : GoodA (affLib32 env) (fun _ => True) (fun _ => True) where
  gen := fun f0 g0 w => by
    obtain ⟨⟨⟨f, g⟩, w'⟩, h, -, -, hw⟩ := genaffinepairM32_ok env f0 g0 w
    obtain ⟨f', g', w'', h', h''⟩ := C18_genaffinepairM32 env f0 g0 w
    have e := h.symm.trans h'
    simp only [Except.ok.injEq, Prod.mk.injEq] at e
    obtain ⟨⟨rfl, rfl⟩, rfl⟩ := e
    exact ⟨((f, g), w'), h, trivial, trivial, fun x z1 z2 hx => (h'' x).1, hw.2.2.2⟩
  mix := fun f g m _ _ => by
    obtain ⟨M, hM, H⟩ := C19_affinemixM32 env f g m
    refine ⟨M, hM, ?_⟩
    intro x y z1 z2 z3 z h1 h2
    obtain ⟨y', z', h1', h2', h3'⟩ := H x
    have e1 := h1.symm.trans h1'
    simp only [Except.ok.injEq] at e1
    subst e1
    have e2 := h2.symm.trans h2'
    simp only [Except.ok.injEq] at e2
    subst e2
    exact h3'

theorem goodA64 (env : Env) : GoodA (affLib64 env) (fun _ => True) (fun _ => True) where
  gen := fun f0 g0 w => by
    obtain ⟨⟨⟨f, g⟩, w'⟩, h, -, -, hw⟩ := genaffinepairM64_ok env f0 g0 w
    obtain ⟨f', g', w'', h', h''⟩ := C18_genaffinepairM64 env f0 g0 w
    have e := h.symm.trans h'
    simp only [Except.ok.injEq, Prod.mk.injEq] at e
    obtain ⟨⟨rfl, rfl⟩, rfl⟩ := e
    exact ⟨((f, g), w'), h, trivial, trivial, fun x z1 z2 hx => (h'' x).1, hw.2.2.2⟩
  mix := fun f g m _ _ => by
    obtain ⟨M, hM, H⟩ := C19_affinemixM64 env f g m
    refine ⟨M, hM, ?_⟩
    intro x y z1 z2 z3 z h1 h2
    obtain ⟨y', z', h1', h2', h3'⟩ := H x
    have e1 := h1.symm.trans h1'
    simp only [Except.ok.injEq] at e1
    subst e1
    have e2 := h2.symm.trans h2'
    simp only [Except.ok.injEq] at e2
    subst e2
    exact h3'

theorem goodA128 (env : Env) : GoodA (affLib128 env) (fun _ => True) (fun _ => True) where
  gen := fun f0 g0 w => by
    obtain ⟨⟨⟨f, g⟩, w'⟩, h, -, -, hw⟩ := genaffinepairM128_ok env f0 g0 w
    obtain ⟨f', g', w'', h', h''⟩ := C18_genaffinepairM128 env f0 g0 w
    have e := h.symm.trans h'
    simp only [Except.ok.injEq, Prod.mk.injEq] at e
    obtain ⟨⟨rfl, rfl⟩, rfl⟩ := e
    exact ⟨((f, g), w'), h, trivial, trivial, fun x z1 z2 hx => (h'' x z1 z2 z1 z2).1, hw.2.2.2⟩
  mix := fun f g m _ _ => by
    obtain ⟨M, hM, H⟩ := C19_affinemixM128 env f g m
    refine ⟨M, hM, ?_⟩
    intro x y z1 z2 z3 z h1 h2
    obtain ⟨y', z', h1', h2', h3'⟩ := H x z1 z2 z3
    have e1 := h1.symm.trans h1'
    simp only [Except.ok.injEq] at e1
    subst e1
    have e2 := h2.symm.trans h2'
    simp only [Except.ok.injEq] at e2
    subst e2
    exact h3'

end WB.accuracy
