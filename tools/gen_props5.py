#!/usr/bin/env python3
"""Writes Proof/Com.lean and the property files C20-C22 (concatenation)."""
from propslib import *
import os
EX = 'Verif.Prop.Examples'
PAIRS = [(8, 32), (16, 64), (8, 64), (32, 128), (8, 128), (16, 128)]


def mkvec(f, k):
    return '![' + ', '.join(f(i) for i in range(1, k + 1)) + ']'


def rev(k, kap):
    """block number stored in column block b on a big-endian machine"""
    return [kap * (b // kap) + (kap - 1 - b % kap) for b in range(k)]


# ---------------------------------------------------------------- helper file
b = '''
/-- Rows of a list of blocks as a total function. -/
def blkOf {k a : Nat} (ms : Fin k → Vector (BitVec a) a) (b i : Nat) : BitVec a :=
  if h : b < k then (if hi : i < a then (ms ⟨b, h⟩)[i] else 0) else 0

theorem blkOf_eq {k a : Nat} (ms : Fin k → Vector (BitVec a) a) {b : Nat} (h : b < k)
    (m : Vector (BitVec a) a) (hm : ms ⟨b, h⟩ = m) : ∀ i (hi : i < a), blkOf ms b i = m[i] := by
  intro i hi
  unfold blkOf
  rw [dif_pos h, dif_pos hi]
  subst hm; rfl

def vOf {k a : Nat} (vs : Fin k → BitVec a) (b : Nat) : BitVec a :=
  if h : b < k then vs ⟨b, h⟩ else 0

/-- Where the big-endian machine puts block `b`: `rev b`. -/
theorem blk_general {k a κ : Nat} (env : Env) (ms : Fin k → Vector (BitVec a) a)
    (X : Matrix (Fin (k * a)) (Fin (k * a)) (ZMod 2)) (σ : Fin k → Fin k)
    (hσ : ∀ b, env.pos κ b.val = (σ b).val)
    (hX : ∀ r c : Fin (k * a), X r c = if c.val / a = env.pos κ (r.val / a) then
      bitF (bitS a (blkOf ms (r.val / a) (r.val % a)) (c.val % a)) else 0) :
    X = fun r c => if c.divNat = σ r.divNat then
      matOf a (bitS a) (ms r.divNat) r.modNat c.modNat else 0 := by
  funext r c
  rw [hX, show r.val / a = r.divNat.val from rfl, hσ]
  by_cases h : c.divNat = σ r.divNat
  · rw [if_pos h, if_pos (by rw [← h]; rfl)]
    unfold blkOf
    rw [dif_pos r.divNat.2, dif_pos (show r.val % a < a from r.modNat.2)]
    rfl
  · rw [if_neg h, if_neg (show ¬ c.val / a = (σ r.divNat).val from fun e => h (Fin.ext e))]

theorem blk_le {k a κ : Nat} (env : Env) (he : env.endian = .little)
    (ms : Fin k → Vector (BitVec a) a)
    (X : Matrix (Fin (k * a)) (Fin (k * a)) (ZMod 2))
    (hX : ∀ r c : Fin (k * a), X r c = if c.val / a = env.pos κ (r.val / a) then
      bitF (bitS a (blkOf ms (r.val / a) (r.val % a)) (c.val % a)) else 0) :
    X = blockDiag (fun b => matOf a (bitS a) (ms b)) := by
  rw [blk_general env ms X id (fun b => by simp [Env.pos, he]) hX]
  funext r c
  unfold blockDiag
  by_cases h : c.divNat = r.divNat
  · rw [if_pos h.symm, if_pos (show c.divNat = id r.divNat from h)]
  · rw [if_neg (show ¬ c.divNat = id r.divNat from h), if_neg (show ¬ r.divNat = c.divNat from fun e => h e.symm)]

theorem vec_general {k a κ : Nat} (env : Env) (vs : Fin k → BitVec a)
    (X : Fin (k * a) → ZMod 2) (σ : Fin k → Fin k)
    (hσ : ∀ b, env.pos κ b.val = (σ b).val)
    (hX : ∀ c : Fin (k * a), X c = bitF (bitS a (vOf vs (env.pos κ (c.val / a))) (c.val % a))) :
    X = concatV (fun b => vecOf a (bitS a) (vs (σ b))) := by
  funext c
  rw [hX, show c.val / a = c.divNat.val from rfl, hσ]
  unfold vOf
  rw [dif_pos (σ c.divNat).2]
  rfl

theorem vec_le {k a κ : Nat} (env : Env) (he : env.endian = .little) (vs : Fin k → BitVec a)
    (X : Fin (k * a) → ZMod 2)
    (hX : ∀ c : Fin (k * a), X c = bitF (bitS a (vOf vs (env.pos κ (c.val / a))) (c.val % a))) :
    X = concatV (fun b => vecOf a (bitS a) (vs b)) :=
  vec_general env vs X id (fun b => by simp [Env.pos, he]) hX

theorem concatV_inj {k a : Nat} {x y : Fin k → Fin a → ZMod 2} (h : concatV x = concatV y) :
    x = y := by
  funext b t
  have := congrFun h (finProdFinEquiv (b, t))
  have h1 : (finProdFinEquiv (b, t)).divNat = b :=
    congrArg Prod.fst (finProdFinEquiv.symm_apply_apply (b, t))
  have h2 : (finProdFinEquiv (b, t)).modNat = t :=
    congrArg Prod.snd (finProdFinEquiv.symm_apply_apply (b, t))
  simpa only [concatV, h1, h2] using this

/-- A matrix whose blocks sit in the column blocks `σ b` is block diagonal only if it is zero,
when `σ` has no fixed point. -/
theorem blk_zero_iff {k a : Nat} (B : Fin k → Mat a) (σ : Fin k → Fin k) (hσ : ∀ b, σ b ≠ b) :
    ((fun r c : Fin (k * a) => if c.divNat = σ r.divNat then B r.divNat r.modNat c.modNat else 0)
      = blockDiag B) ↔ ∀ b, B b = 0 := by
  constructor
  · intro h b
    ext i j
    have := congrFun (congrFun h (finProdFinEquiv (b, i))) (finProdFinEquiv (b, j))
    have hd : ∀ (b : Fin k) (t : Fin a), (finProdFinEquiv (b, t)).divNat = b := fun b t =>
      congrArg Prod.fst (finProdFinEquiv.symm_apply_apply (b, t))
    have hm : ∀ (b : Fin k) (t : Fin a), (finProdFinEquiv (b, t)).modNat = t := fun b t =>
      congrArg Prod.snd (finProdFinEquiv.symm_apply_apply (b, t))
    simp only [blockDiag, hd, hm] at this
    simp only [if_neg (fun e => hσ b e.symm : ¬ b = σ b)] at this
    simpa using this.symm
  · intro h
    funext r c
    simp [blockDiag, h]

/-! ## The size pairs -/
'''
for a, n in PAIRS:
    k = n // a
    wd = n in L
    kap = 64 // a if wd else k
    q = lambda i: i // kap
    nm = f'{a}to{n}'
    ms = ' '.join(f'm{i}' for i in range(1, k + 1))
    vs = ' '.join(f'v{i}' for i in range(1, k + 1))
    msl = mkvec(lambda i: f'm{i}', k)
    vsl = mkvec(lambda i: f'v{i}', k)
    b += f'''
theorem MatrixcomM{nm}_gen (env : Env) ({ms} : M{a}) (mat : M{n}) :
    Ok (MatrixcomM{nm} env {ms} mat) (fun M => ∀ r c : Fin {n}, mat{n} M r c =
      if c.val / {a} = env.pos {kap} (r.val / {a}) then
        bitF (bitS {a} (blkOf {msl} (r.val / {a}) (r.val % {a})) (c.val % {a})) else 0) := by
  unfold MatrixcomM{nm}
  rw [initM{n}_eq, C_pure_bind]
  have h0 := comInv_zero (N := {n}) {'(Vector.replicate 2 (0 : BitVec 64))' if wd else f'(0 : BitVec {n})'} (f{'W' if wd else 'S'} env {kap})
    (blkOf (a := {a}) {msl})
'''
    for i in range(k):
        if wd:
            b += f'''  refine Ok.bind (comStepW (N := {n}) _ env (κ := {kap}) _ rfl (by norm_num) (by norm_num) (b := {i}) (by norm_num) (by norm_num) (by norm_num)
    (by norm_num) m{i+1} (blkOf_eq _ (by norm_num) _ rfl) h{i}) fun s{i+1} h{i+1} => ?_
'''
        else:
            b += f'''  refine Ok.bind (comStepS (N := {n}) _ env (κ := {kap}) _ rfl (by norm_num) (by norm_num) (b := {i}) (by norm_num)
    (by norm_num) m{i+1} (blkOf_eq _ (by norm_num) _ rfl) h{i}) fun s{i+1} h{i+1} => ?_
'''
    cell = f'cellW env (l := 2) (by norm_num) (by norm_num) (by norm_num) (by norm_num)' if wd else f'cellS env (by norm_num) (by norm_num) (by norm_num)'
    hz = 'bitW_zero' if wd else 'by intro c; simp [bitS]'
    b += f'''  rw [Ok.pure_iff]
  exact comMat _ _ _ env (K := {k}) _ (by norm_num) (by norm_num) ({cell}) ({hz}) h{k}

theorem VectorcomV{nm}_gen (env : Env) ({vs} : V{a}) (vec : V{n}) :
    Ok (VectorcomV{nm} env {vs} vec) (fun X => ∀ c : Fin {n}, vec{n} X c =
      bitF (bitS {a} (vOf {vsl} (env.pos {kap} (c.val / {a}))) (c.val % {a}))) := by
  unfold VectorcomV{nm}
'''
    bit = 'bitW (l := 2)' if wd else f'bitS {n} (w := {n})'
    b += f'''  have hc := {cell.replace("env", f"(a := {a}) (κ := {kap}) (N := {n}) env",1)}
  have h0 := vecInv_zero (N := {n}) env {kap} ({bit}) (vOf (a := {a}) {vsl}) vec
'''
    if wd:
        b += f'  rw [show ∀ x : V128, (pure x : C V128) = .ok x from fun _ => rfl]\n' if False else ''
    for i in range(k):
        b += f'''  have h{i+1} := vecInv_step env {kap} ({bit}) _ (by norm_num) hc (b := {i}) (by norm_num) h{i}
'''
    for i in range(k):
        kk = kap - 1 - i % kap
        if wd:
            b += f'''  refine stVW_bind env (κ := {kap}) (b := {i}) _ (by norm_num) (by norm_num) (by norm_num) (by norm_num) (by norm_num) _ _ ?_
''' if i + 1 < k else f'''  refine Ok.of_eq (stVW env (κ := {kap}) (a := {a}) (b := {i}) (k := {kk}) (q := {q(i)}) (l := 2) (by norm_num) (by norm_num) (by norm_num) (by norm_num) (by norm_num) _ _) ?_
'''
        else:
            b += f'''  rw [stVS env (κ := {kap}) (b := {i}) (by norm_num) (by norm_num) (by norm_num){', C_pure_bind' if i + 1 < k else ', Ok.ok_iff'}]
'''
    b += f'''  exact vecInv_end env {kap} _ _ (K := {k}) (by norm_num) (by norm_num) (by norm_num) h{k}
'''
s = '''import Verif.Proof.ComGen
import Verif.Model.Com

/-!
# Concatenation: the six size pairs

Generated once by `tools/gen_props5.py`; kept under version control as source.
-/
namespace WB
open Matrix

theorem stVW_bind (env : Env) {κ a l b k q : Nat} {γ : Type} (g : Vector (BitVec 64) l → C γ)
    {Q : γ → Prop} (hN : 64 = κ * a) (hκ : 0 < κ)
    (hk : k = κ - 1 - b % κ) (hq : q = b / κ) (hql : q < l) (x : Vector (BitVec 64) l)
    (v : BitVec a) (h : Ok (g (fW env κ b x v)) Q) :
    Ok (rd x q >>= fun y => env.stSub y k v >>= fun z => wr x q z >>= g) Q := by
  have e := stVW env hN hκ hk hq hql x v
  rw [show (rd x q >>= fun y => env.stSub y k v >>= fun z => wr x q z >>= g) =
    ((rd x q >>= fun y => env.stSub y k v >>= fun z => wr x q z) >>= g) by
      simp only [bind_assoc], e]
  exact h

theorem bitW_zero {l : Nat} (c : Nat) : bitW (Vector.replicate l (0 : BitVec 64)) c = false := by
  by_cases h : c / 64 < l
  · rw [bitW_eq _ _ h]; simp
  · simp [bitW, h]

theorem Ok.of_eq {α : Type} {x : C α} {y : α} {Q : α → Prop} (h : x = .ok y) (hq : Q y) :
    Ok x Q := ⟨y, h, hq⟩
''' + b + '\nend WB\n'
open(os.path.join(D, '..', 'Proof', 'Com.lean'), 'w').write(s)


# ---------------------------------------------------------------- properties
def names(p, k):
    return ' '.join(f'{p}{i}' for i in range(1, k + 1))


C20 = C21 = C22 = ''
for a, n in PAIRS:
    k = n // a
    wd = n in L
    kap = 64 // a if wd else k
    nm = f'{a}to{n}'
    ms, vs, afs, xs, ys, os_ = (names(p, k) for p in ('m', 'v', 'f', 'x', 'y', 'o'))
    msl, vsl = mkvec(lambda i: f'm{i}', k), mkvec(lambda i: f'v{i}', k)
    matl = mkvec(lambda i: f'mat{a} m{i}', k)
    vecl = mkvec(lambda i: f'vec{a} v{i}', k)
    C20 += f'''
/-- C20: `MatrixcomM{nm}` stores the block-diagonal matrix of its arguments. -/
theorem C20_MatrixcomM{nm} (env : Env) (he : env.endian = .little) ({ms} : M{a}) (old : M{n}) :
    ∃ M, MatrixcomM{nm} env {ms} old = .ok M ∧
      mat{n} M = blockDiag (k := {k}) (a := {a}) {matl} := by
  obtain ⟨M, h, hM⟩ := MatrixcomM{nm}_gen env {ms} old
  refine ⟨M, h, ?_⟩
  rw [blk_le (k := {k}) (a := {a}) env he {msl} (mat{n} M) hM]
  congr 1
  funext b; fin_cases b <;> rfl

/-- C20: `VectorcomV{nm}` stores the concatenation of its arguments. -/
theorem C20_VectorcomV{nm} (env : Env) (he : env.endian = .little) ({vs} : V{a}) (old : V{n}) :
    ∃ X, VectorcomV{nm} env {vs} old = .ok X ∧
      vec{n} X = concatV (k := {k}) (a := {a}) {vecl} := by
  obtain ⟨X, h, hX⟩ := VectorcomV{nm}_gen env {vs} old
  refine ⟨X, h, ?_⟩
  rw [vec_le (k := {k}) (a := {a}) env he {vsl} (vec{n} X) hX]
  congr 1
  funext b; fin_cases b <;> rfl

/-- C20: `affinecomM{nm}` does both. -/
theorem C20_affinecomM{nm} (env : Env) (he : env.endian = .little) ({afs} : Aff{a}) (old : Aff{n}) :
    ∃ F, affinecomM{nm} env {afs} old = .ok F ∧
      mat{n} F.Mat = blockDiag (k := {k}) (a := {a}) {mkvec(lambda i: f"mat{a} f{i}.Mat", k)} ∧
      vec{n} F.Vec = concatV (k := {k}) (a := {a}) {mkvec(lambda i: f"vec{a} f{i}.Vec", k)} := by
  obtain ⟨M, h, hM⟩ := C20_MatrixcomM{nm} env he {' '.join(f'f{i}.Mat' for i in range(1, k+1))} old.Mat
  obtain ⟨X, g, hX⟩ := C20_VectorcomV{nm} env he {' '.join(f'f{i}.Vec' for i in range(1, k+1))} old.Vec
  refine ⟨⟨M, X⟩, ?_, hM, hX⟩
  unfold affinecomM{nm}
  rw [h, C_pure_bind, g, C_pure_bind]
  rfl
'''
    exm = ' '.join(f'ex{"AB"[i % 2]}{a}' for i in range(k))
    exv = ' '.join(str(hex(0x11 * (i + 1))) for i in range(k))
    val = 0
    for i in range(k):
        val = (val << a) | (0x11 * (i + 1))
    exold = f'ex{"B"}{n}'
    C20 += f'''
example : VectorcomV{nm} exEnv {exv} exX{n} = .ok {lit(n, val)} := by decide +kernel
example : ∃ M, MatrixcomM{nm} exEnv {exm} {exold} = .ok M ∧
    mat{n} M = blockDiag (k := {k}) (a := {a}) {mkvec(lambda i: f'mat{a} ex{"AB"[(i-1) % 2]}{a}', k)} :=
  C20_MatrixcomM{nm} exEnv rfl {exm} {exold}
'''
    # C21
    oa = ' o' if wd else ''
    hyp = f' (o : V128)' if wd else ''
    cy = mkvec(lambda i: f'y{i}', k)
    C21 += f'''
/-- C21: the affine map stored by `affinecomM{nm}` acts blockwise. -/
theorem C21_affinecomM{nm} (env : Env) (he : env.endian = .little) ({afs} : Aff{a})
    (oldF : Aff{n}) ({xs} : V{a}) (oldX oldY{' o' if wd else ''} : V{n}) :
    ∃ F X {ys} Y, affinecomM{nm} env {afs} oldF = .ok F ∧
      VectorcomV{nm} env {xs} oldX = .ok X ∧
      {' ∧ '.join(f'affineU{a} env f{i} x{i} = .ok y{i}' for i in range(1, k+1))} ∧
      VectorcomV{nm} env {ys} oldY = .ok Y ∧
      affineU{n} env F X{oa} = .ok Y := by
  obtain ⟨F, hF, hM, hV⟩ := C20_affinecomM{nm} env he {afs} oldF
  obtain ⟨X, hX, eX⟩ := C20_VectorcomV{nm} env he {xs} oldX
'''
    for i in range(1, k + 1):
        C21 += f'  obtain ⟨y{i}, h{i}, e{i}⟩ := affineU{a}_ok env f{i} x{i}\n'
    C21 += f'''  obtain ⟨Y, hY, eY⟩ := C20_VectorcomV{nm} env he {ys} oldY
  obtain ⟨Z, hZ, eZ⟩ := affineU{n}_ok env F X{oa}
  obtain rfl : Z = Y := vec{n}_inj (by
    rw [eZ, eY, hM, hV, eX]
    refine (congrArg (· + _) (blockDiag_mulVec (k := {k}) (a := {a}) _ _)).trans ?_
    rw [{', '.join(f'e{i}' for i in range(1, k+1))}]
    refine (concatV_add (k := {k}) (a := {a}) _ _).trans ?_
    congr 1
    funext b; fin_cases b <;> rfl)
  exact ⟨F, X, {', '.join(f'y{i}' for i in range(1, k+1))}, Z, hF, hX, {', '.join(f'h{i}' for i in range(1, k+1))}, hY, hZ⟩
'''
    exf = ' '.join(f'⟨ex{"AB"[i % 2]}{a}, {hex(3 + i)}⟩' for i in range(k))
    C21 += f'''
example : ∃ F X {ys} Y, affinecomM{nm} exEnv {exf} ⟨exB{n}, exX{n}⟩ = .ok F ∧
      VectorcomV{nm} exEnv {exv} exX{n} = .ok X ∧
      {' ∧ '.join(f'affineU{a} exEnv ⟨ex{"AB"[(i-1) % 2]}{a}, {hex(2 + i)}⟩ {hex(0x11*i)} = .ok y{i}' for i in range(1, k+1))} ∧
      VectorcomV{nm} exEnv {ys} exX{n} = .ok Y ∧
      affineU{n} exEnv F X{' exX128' if wd else ''} = .ok Y :=
  C21_affinecomM{nm} exEnv rfl {exf} ⟨exB{n}, exX{n}⟩ {exv} exX{n} exX{n}{' exX128' if wd else ''}
'''
    # C22
    rv = rev(k, kap)
    revl = '![' + ', '.join(str(x) for x in rv) + ']'
    revvec = '![' + ', '.join(f'vec{a} v{rv[i] + 1}' for i in range(k)) + ']'
    pairs = [(i, rv[i]) for i in range(k) if i < rv[i]]
    C22 += f'''
/-- C22: on a big-endian machine `VectorcomV{nm}` stores the arguments in reversed order
{"inside each 64-bit word" if wd else ""}. -/
theorem C22_VectorcomV{nm} (env : Env) (he : env.endian = .big) ({vs} : V{a}) (old : V{n}) :
    ∃ X, VectorcomV{nm} env {vs} old = .ok X ∧
      vec{n} X = concatV (k := {k}) (a := {a}) {revvec} ∧
      (vec{n} X = concatV (k := {k}) (a := {a}) {vecl} ↔
        {' ∧ '.join(f'v{i+1} = v{j+1}' for i, j in pairs)}) := by
  obtain ⟨X, h, hX⟩ := VectorcomV{nm}_gen env {vs} old
  have e : vec{n} X = concatV (k := {k}) (a := {a}) {revvec} := by
    rw [vec_general (k := {k}) (a := {a}) env {vsl} (vec{n} X) {revl}
      (fun b => by simp only [Env.pos, he]; fin_cases b <;> rfl) hX]
    congr 1
    funext b; fin_cases b <;> rfl
  refine ⟨X, h, e, ?_⟩
  constructor
  · intro h'
    have h2 := concatV_inj (e.symm.trans h')
    exact ⟨{', '.join(f'(vec{a}_inj (congrFun h2 {i})).symm' for i, j in pairs)}⟩
  · rintro ⟨{', '.join('rfl' for _ in pairs)}⟩
    exact e

/-- C22: on a big-endian machine `MatrixcomM{nm}` puts block row `b` into block column
`{revl} b`; the result is the documented block-diagonal matrix only when all blocks are zero. -/
theorem C22_MatrixcomM{nm} (env : Env) (he : env.endian = .big) ({ms} : M{a}) (old : M{n}) :
    ∃ M, MatrixcomM{nm} env {ms} old = .ok M ∧
      (∀ r c : Fin ({k} * {a}), mat{n} M r c =
        if c.divNat = ({revl} : Fin {k} → Fin {k}) r.divNat then
          ({matl} : Fin {k} → Matrix (Fin {a}) (Fin {a}) (ZMod 2)) r.divNat r.modNat c.modNat else 0) ∧
      (mat{n} M = blockDiag (k := {k}) (a := {a}) {matl} ↔
        ∀ b : Fin {k}, ({matl} : Fin {k} → Matrix (Fin {a}) (Fin {a}) (ZMod 2)) b = 0) := by
  obtain ⟨M, h, hM⟩ := MatrixcomM{nm}_gen env {ms} old
  have hml : (fun b => matOf {a} (bitS {a}) (({msl} : Fin {k} → M{a}) b)) = {matl} := by
    funext b; fin_cases b <;> rfl
  have e := blk_general (k := {k}) (a := {a}) env {msl} (mat{n} M) {revl}
      (fun b => by simp only [Env.pos, he]; fin_cases b <;> rfl) hM
  have e2 : mat{n} M = fun r c : Fin ({k} * {a}) => if c.divNat = ({revl} : Fin {k} → Fin {k}) r.divNat then
      ({matl} : Fin {k} → Matrix (Fin {a}) (Fin {a}) (ZMod 2)) r.divNat r.modNat c.modNat else 0 := by
    rw [← hml]; exact e
  refine ⟨M, h, fun r c => by rw [e2], ?_⟩
  rw [e2]
  exact blk_zero_iff (k := {k}) (a := {a}) _ _ (by decide)
'''
    vals = [0x11 * (rv[i] + 1) for i in range(k)]
    val = 0
    for x in vals:
        val = (val << a) | x
    C22 += f'''
example : VectorcomV{nm} exEnvBE {exv} exX{n} = .ok {lit(n, val)} := by decide +kernel
example : ∃ M, MatrixcomM{nm} exEnvBE {exm} {exold} = .ok M ∧
    mat{n} M ≠ blockDiag (k := {k}) (a := {a}) {mkvec(lambda i: f'mat{a} ex{"AB"[(i-1) % 2]}{a}', k)} := by
  obtain ⟨M, h, -, hM⟩ := C22_MatrixcomM{nm} exEnvBE rfl {exm} {exold}
  refine ⟨M, h, fun e => ?_⟩
  have h0 : mat{a} exA{a} = 0 := hM.1 e 0
  exact absurd (congrFun (congrFun h0 0) 0) (by decide +kernel)
'''
write('C20', ['Verif.Proof.Com', EX], '# C20 — concatenation is block diagonal (little endian)', C20)
write('C21', ['Verif.Prop.C20'], '# C21 — concatenated affine maps act blockwise (little endian)', C21)
write('C22', ['Verif.Proof.Com', EX], '# C22 — concatenation depends on the byte order', C22)
