#!/usr/bin/env python3
"""Writes lean/Verif/Proof/Simple.lean: exact results of the straight-line loops, per size."""
import os
OUT = os.path.join(os.path.dirname(__file__), '..', 'lean', 'Verif', 'Proof', 'Simple.lean')
W = {4: 8, 8: 8, 16: 16, 32: 32, 64: 64}
L = {128: 2, 256: 4}
o = []
o.append('''import Verif.Proof.Rows
import Verif.Model.M4
import Verif.Model.M8
import Verif.Model.M16
import Verif.Model.M32
import Verif.Model.M64
import Verif.Model.M128
import Verif.Model.M256

/-!
# Exact results of the straight-line loops (helper lemmas)

Written by `tools/gen_simple.py`.
-/
namespace WB
open Matrix

theorem ofFn_getElem {α : Type} {n : Nat} (v : Vector α n) :
    (Vector.ofFn fun i : Fin n => v[i]) = v := by
  ext i hi; simp

theorem mat_zero {w : Nat} (n : Nat) :
    matOf n (bitS n) (Vector.replicate n (0 : BitVec w)) = 0 := by
  ext r c; simp [matOf, bitS]

theorem mat_id {n w : Nat} {id : Vector (BitVec w) n} (h : IdOK n id) :
    matOf n (bitS n) id = 1 := by
  ext r c
  simp only [matOf, Fin.getElem_fin, h.2 r.val r.2, bitS, BitVec.getLsbD_twoPow, one_apply]
  have := h.1
  by_cases e : r = c
  · subst e; simp; omega
  · have : r.val ≠ c.val := fun e' => e (Fin.ext e')
    rw [if_neg e]
    simp; omega

theorem mat_add {n w : Nat} (A B : Vector (BitVec w) n) :
    matOf n (bitS n) (Vector.ofFn fun i : Fin n => A[i] ^^^ B[i]) =
      matOf n (bitS n) A + matOf n (bitS n) B := by
  ext r c
  simp [matOf, bitS_xor, bitF_xor]

theorem vec_add {n w : Nat} (x y : BitVec w) :
    vecOf n (bitS n) (x ^^^ y) = vecOf n (bitS n) x + vecOf n (bitS n) y := by
  ext c; simp [vecOf, bitS_xor, bitF_xor]

theorem vecEq_iff {n : Nat} {α : Type} (A B : Vector α n) :
    (∀ i (h : i < n), A[i] = B[i]) ↔ A = B := by
  constructor
  · intro h; ext i hi; exact h i hi
  · rintro rfl i _; rfl

theorem vecEq2 {α : Type} (A B : Vector α 2) : A = B ↔ A[0] = B[0] ∧ A[1] = B[1] := by
  constructor
  · rintro rfl; exact ⟨rfl, rfl⟩
  · rintro ⟨h0, h1⟩
    rw [← vec2_eta A, ← vec2_eta B, h0, h1]

theorem vecEq4 {α : Type} (A B : Vector α 4) :
    A = B ↔ A[0] = B[0] ∧ A[1] = B[1] ∧ A[2] = B[2] ∧ A[3] = B[3] := by
  constructor
  · rintro rfl; exact ⟨rfl, rfl, rfl, rfl⟩
  · rintro ⟨h0, h1, h2, h3⟩
    rw [← vec4_eta A, ← vec4_eta B, h0, h1, h2, h3]

theorem matW_zero {l n : Nat} (hn : n = 64 * l) :
    matOf n bitW (Vector.replicate n (Vector.replicate l (0 : BitVec 64))) = 0 := by
  ext r c
  have := c.2
  simp only [matOf, Fin.getElem_fin, Vector.getElem_replicate]
  rw [bitW_eq _ _ (by omega)]
  simp

theorem matW_addmat {l n : Nat} (hn : n = 64 * l) {A B Z : Vector (Vector (BitVec 64) l) n}
    (h : ∀ r (hr : r < n) k (hk : k < l), Z[r][k] = A[r][k] ^^^ B[r][k]) :
    matOf n bitW Z = matOf n bitW A + matOf n bitW B := by
  ext r c
  have := c.2
  have hc : c.val / 64 < l := by omega
  simp only [matOf, Fin.getElem_fin, Matrix.add_apply]
  rw [bitW_xor hc (h r.val r.2 _ hc), bitF_xor]

theorem vecW_add {l n : Nat} (hn : n = 64 * l) {x y z : Vector (BitVec 64) l}
    (h : ∀ k (hk : k < l), z[k] = x[k] ^^^ y[k]) :
    vecOf n bitW z = vecOf n bitW x + vecOf n bitW y := by
  ext c
  have := c.2
  have hc : c.val / 64 < l := by omega
  simp only [vecOf, Pi.add_apply]
  rw [bitW_xor hc (h _ hc), bitF_xor]

/-- The identity matrix on rows of words. -/
theorem matW_id {l n : Nat} (hn : n = 64 * l) {Z : Vector (Vector (BitVec 64) l) n}
    (h : ∀ r (hr : r < n) k (hk : k < l),
      Z[r][k] = if k = r / 64 then BitVec.twoPow 64 (63 - r % 64) else 0) :
    matOf n bitW Z = 1 := by
  ext r c
  have := c.2
  have hc : c.val / 64 < l := by omega
  simp only [matOf, Fin.getElem_fin, one_apply]
  rw [bitW_eq _ _ hc, h r.val r.2 _ hc]
  by_cases e : r = c
  · subst e
    simp; omega
  · have hne : r.val ≠ c.val := fun e' => e (Fin.ext e')
    rw [if_neg e]
    split
    · simp only [BitVec.getLsbD_twoPow, bitF_eq_zero, Bool.and_eq_false_iff,
        decide_eq_false_iff_not]
      omega
    · simp

theorem rd_idM64 {i : Nat} (h : i < 64) : rd idM64 i = .ok (BitVec.twoPow 64 (63 - i)) := by
  rw [rd_ok _ _ h, idOK64.2 i h]
''')
for n, w in W.items():
    o.append(f'''
/-! ## Size {n} -/

theorem initM{n}_eq (M : M{n}) : initM{n} M = .ok (Vector.replicate {n} 0) := fillc_spec M 0

theorem identityM{n}_eq (M : M{n}) : identityM{n} M = .ok idM{n} := by
  have := fill_spec M (fun i => rd idM{n} i) (fun i => idM{n}[i]) (fun i h => rd_ok _ _ h)
  rw [ofFn_getElem] at this
  exact this

theorem copyM{n}_eq (A B : M{n}) : copyM{n} A B = .ok A := by
  have := fill_spec B (fun i => rd A i) (fun i => A[i]) (fun i h => rd_ok _ _ h)
  rw [ofFn_getElem] at this
  exact this

theorem MatAddMatM{n}_eq (A B M : M{n}) :
    MatAddMatM{n} A B M = .ok (Vector.ofFn fun i : Fin {n} => A[i] ^^^ B[i]) := by
  have := fill_spec M (fun i => do pure ((← rd A i) ^^^ (← rd B i))) (fun i => A[i] ^^^ B[i])
    (fun i h => by rw [rd_ok _ _ h, rd_ok _ _ h]; rfl)
  unfold MatAddMatM{n}
  simpa only [bind_assoc, pure_bind] using this

theorem isequalM{n}_eq (A B : M{n}) : isequalM{n} A B = .ok (if A = B then 1 else 0) := by
  unfold isequalM{n}
  refine (eqLoop (n := {n}) _ (fun i => ∀ h : i < {n}, A[i] = B[i]) ?_).trans ?_
  rotate_left
  · refine congrArg Except.ok (if_congr ?_ rfl rfl)
    rw [← vecEq_iff]
    exact ⟨fun h i hi => h i hi hi, fun h i _ hi => h i hi⟩
  · intro i h
    rw [rd_ok _ _ h, rd_ok _ _ h]
    simp only [C_pure_bind]
    by_cases e : A[i] = B[i]
    · simp [e]; rfl
    · simp [e, h]; rfl
''')
for n, l in L.items():
    z = ', '.join(['0'] * l)
    def fill(gs, fs):
        return '(' + ') ('.join(gs) + ')', '(' + ') ('.join(fs) + ')'
    segs = []
    idproof = ''
    for p in range(l):
        gs = ['fun _ => .ok 0'] * l
        fs = ['fun _ => 0'] * l
        off = f' - {64*p}' if p else ''
        gs[p] = f'fun i => rd idM64 (i{off})'
        fs[p] = f'fun i => BitVec.twoPow 64 (63 - (i{off}))'
        prf = []
        for k in range(l):
            prf.append('(fun i _ _ => rd_idM64 (by omega))' if k == p else '(fun _ _ _ => rfl)')
        opn = 'Ok.bind (' if p < l - 1 else '('
        cls = ') ?_' if p < l - 1 else ').mono ?_'
        idproof += f'''  refine {opn}fill{l}_spec (lo := {64*p}) (hi := {64*p+64}) _ {' '.join('(' + g + ')' for g in gs)}
    {' '.join('(' + f + ')' for f in fs)} (by omega) (by omega)
    {' '.join(prf)}{cls}
  intro M{p+1} h{p+1}
'''
    cases = ' | '.join(['rfl'] * l)
    ors = ' ∨ '.join(f'k = {k}' for k in range(l))
    rows = ''
    for p in range(l):
        chain = ''.join(f'(h{q} r hr).2 (by omega), ' for q in range(l, p + 1, -1))
        rows += f'''  · rw [{chain}(h{p+1} r hr).1 (by omega) (by omega)]
    obtain {cases} : {ors} := by omega
'''
        for k in range(l):
            if k == p:
                rows += f'''    · have e : r / 64 = {p} := by omega
      have e2 : r % 64 = r - {64*p} := by omega
      simp [e, e2]
'''
            else:
                rows += f'''    · have e : r / 64 = {p} := by omega
      simp [e]
'''
    rors = ' ∨ '.join(f'({64*p} ≤ r ∧ r < {64*p+64})' for p in range(l))
    rpat = ' | '.join(['hc'] * l)
    cop = ' '.join(f'(fun i => rd2 A i {k})' for k in range(l))
    copf = ' '.join(f'(fun i => (A[i]?.getD 0)[{k}])' for k in range(l))
    addg = ' '.join(f'(fun i => do pure ((← rd2 A i {k}) ^^^ (← rd2 B i {k})))' for k in range(l))
    addf = ' '.join(f'(fun i => (A[i]?.getD (Vector.replicate {l} 0))[{k}] ^^^ (B[i]?.getD (Vector.replicate {l} 0))[{k}])' for k in range(l))
    copf = ' '.join(f'(fun i => (A[i]?.getD (Vector.replicate {l} 0))[{k}])' for k in range(l))
    o.append(f'''
/-! ## Size {n} -/

theorem initM{n}_eq (M : M{n}) :
    initM{n} M = .ok (Vector.replicate {n} (Vector.replicate {l} 0)) := by
  rw [← Ok.eq]
  refine (fill{l}_spec (lo := 0) (hi := {n}) M {' '.join(['(fun _ => .ok 0)']*l)} {' '.join(['(fun _ => 0)']*l)}
    (by omega) (by omega) {' '.join(['(fun _ _ _ => rfl)']*l)}).mono ?_
  intro Z h
  ext r hr k hk
  rw [(h r hr).1 (by omega) hr]
  simp only [Vector.getElem_replicate]
  obtain {cases} : {ors} := by omega
  all_goals rfl

theorem identityM{n}_ok (M : M{n}) : Ok (identityM{n} M) (fun Z => matOf {n} bitW Z = 1) := by
  unfold identityM{n}
{idproof}  refine matW_id (l := {l}) rfl ?_
  intro r hr k hk
  have hcase : {rors} := by omega
  rcases hcase with {rpat}
{rows.rstrip()}

theorem copyM{n}_eq (A B : M{n}) : copyM{n} A B = .ok A := by
  rw [← Ok.eq]
  refine (fill{l}_spec (lo := 0) (hi := {n}) B {cop}
    {copf}
    (by omega) (by omega) {' '.join(['(fun i _ h => by simp [rd2_ok, h])']*l)}).mono ?_
  intro Z h
  ext r hr
  rw [(h r hr).1 (by omega) hr]
  simp only [hr, Vector.getElem?_eq_getElem, Option.getD_some, vec{l}_eta]

theorem MatAddMatM{n}_ok (A B M : M{n}) :
    Ok (MatAddMatM{n} A B M) (fun Z => ∀ r (hr : r < {n}) k (hk : k < {l}),
      Z[r][k] = A[r][k] ^^^ B[r][k]) := by
  have := (fill{l}_spec (lo := 0) (hi := {n}) M {addg}
    {addf}
    (by omega) (by omega) {' '.join(['(fun i _ h => by simp [rd2_ok, h]; try rfl)']*l)})
  unfold MatAddMatM{n}
  simp only [bind_assoc, pure_bind] at this
  refine this.mono ?_
  intro Z h r hr k hk
  rw [(h r hr).1 (by omega) hr]
  simp only [hr, Vector.getElem?_eq_getElem, Option.getD_some]
  obtain {cases} : {ors} := by omega
  all_goals rfl

theorem isequalM{n}_eq (A B : M{n}) : isequalM{n} A B = .ok (if A = B then 1 else 0) := by
  unfold isequalM{n}
  refine (eqLoop (n := {n}) _ (fun i => ∀ h : i < {n}, A[i] = B[i]) ?_).trans ?_
  rotate_left
  · refine congrArg Except.ok (if_congr ?_ rfl rfl)
    rw [← vecEq_iff]
    exact ⟨fun h i hi => h i hi hi, fun h i _ hi => h i hi⟩
  · intro i h
    simp only [rd2_ok, h, C_pure_bind, Nat.zero_lt_succ, {', '.join(['Nat.reduceLT']) }, forall_true_left, vecEq{l}]
    {' <;> '.join(f'by_cases e{k} : A[i][{k}] = B[i][{k}]' for k in range(l))} <;> simp [{', '.join(f'e{k}' for k in range(l))}] <;> rfl
''')
o.append('\nend WB\n')
open(OUT, 'w').write(''.join(o))
