#!/usr/bin/env python3
"""Writes the property file C35 (ring laws through the API)."""
from propslib import *
EX = 'Verif.Prop.Examples'
b = ''
for n in ALL:
    M = f'M{n}'
    four = n == 4
    hA = ' (hA : CleanM4 A)' if four else ''
    hB = ' (hB : CleanM4 B)' if four else ''
    hC = ' (hC : CleanM4 C)' if four else ''
    mm = f'MatMulMatM{n}'
    ad = f'MatAddMatM{n}'
    tr = f'MattransM{n}'
    def prod(name, a, bb, out, clean_b):
        return f"  obtain ⟨{name}, h{name}, e{name}{', c' + name if four else ''}⟩ := MatMulMatM{n}_ok env {a} {bb} {out}{' ' + clean_b if four else ''}\n"
    def add(name, a, bb, out):
        return f"  obtain ⟨{name}, h{name}, e{name}{', c' + name if four else ''}⟩ := C05_MatAddMatM{n} {a} {bb} {out}\n"
    def eq(x, y, how):
        i = f'mat4_inj c{x} c{y}' if four else f'mat{n}_inj'
        return f'  obtain rfl : {x} = {y} := {i} (by {how})\n'
    b += f'''
/-- C35: products are associative, bit for bit. -/
theorem C35_mul_assocM{n} (env : Env) (A B C X0 X1 X2 X3 : {M}){hB}{hC} :
    ∃ AB BC R, {mm} env A B X0 = .ok AB ∧ {mm} env B C X1 = .ok BC ∧
      {mm} env AB C X2 = .ok R ∧ {mm} env A BC X3 = .ok R := by
'''
    b += prod('P', 'A', 'B', 'X0', 'hB') + prod('Q', 'B', 'C', 'X1', 'hC') + prod('R', 'P', 'C', 'X2', 'hC') + prod('S', 'A', 'Q', 'X3', 'cQ')
    b += eq('S', 'R', 'rw [eS, eR, eP, eQ, Matrix.mul_assoc]')
    b += f'''  exact ⟨P, Q, _, hP, hQ, hR, hS⟩

/-- C35: left distributivity. -/
theorem C35_mul_addM{n} (env : Env) (A B C X0 X1 X2 X3 X4 : {M}){hB}{hC} :
    ∃ S AB AC R, {ad} B C X0 = .ok S ∧ {mm} env A B X1 = .ok AB ∧ {mm} env A C X2 = .ok AC ∧
      {mm} env A S X3 = .ok R ∧ {ad} AB AC X4 = .ok R := by
'''
    b += add('S', 'B', 'C', 'X0') + prod('P', 'A', 'B', 'X1', 'hB') + prod('Q', 'A', 'C', 'X2', 'hC') + prod('R', 'A', 'S', 'X3', '(cS hB hC)') + add('T', 'P', 'Q', 'X4')
    if four: b += '  have cT := cT cP cQ\n'
    b += eq('T', 'R', 'rw [eT, eR, eP, eQ, eS, Matrix.mul_add]')
    b += f'''  exact ⟨S, P, Q, _, hS, hP, hQ, hR, hT⟩

/-- C35: right distributivity. -/
theorem C35_add_mulM{n} (env : Env) (A B C X0 X1 X2 X3 X4 : {M}){hC} :
    ∃ S AC BC R, {ad} A B X0 = .ok S ∧ {mm} env A C X1 = .ok AC ∧ {mm} env B C X2 = .ok BC ∧
      {mm} env S C X3 = .ok R ∧ {ad} AC BC X4 = .ok R := by
'''
    b += add('S', 'A', 'B', 'X0') + prod('P', 'A', 'C', 'X1', 'hC') + prod('Q', 'B', 'C', 'X2', 'hC') + prod('R', 'S', 'C', 'X3', 'hC') + add('T', 'P', 'Q', 'X4')
    if four: b += '  have cT := cT cP cQ\n'
    b += eq('T', 'R', 'rw [eT, eR, eP, eQ, eS, Matrix.add_mul]')
    b += f'''  exact ⟨S, P, Q, _, hS, hP, hQ, hR, hT⟩

/-- C35: the matrix made by `identityM{n}` is neutral on both sides. -/
theorem C35_oneM{n} (env : Env) (A X0 X1 X2 : {M}){hA} :
    ∃ I, identityM{n} X0 = .ok I ∧ {mm} env I A X1 = .ok A ∧ {mm} env A I X2 = .ok A := by
  obtain ⟨I, hI, eI{', cI' if four else ''}⟩ := C06_identityM{n} X0
'''
    b += prod('P', 'I', 'A', 'X1', 'hA') + prod('Q', 'A', 'I', 'X2', 'cI')
    i1 = 'mat4_inj cP hA' if four else f'mat{n}_inj'
    i2 = 'mat4_inj cQ hA' if four else f'mat{n}_inj'
    b += f'''  obtain rfl : P = A := {i1} (by rw [eP, eI, Matrix.one_mul])
  obtain rfl : Q = P := {i2} (by rw [eQ, eI, Matrix.mul_one])
  exact ⟨I, hI, hP, hQ⟩

/-- C35: the transpose of a product is the product of the transposes in reverse order. -/
theorem C35_transposeM{n} (env : Env) (A B X0 X1 X2 X3 X4 : {M}){hA}{hB} :
    ∃ AB AT BT R, {mm} env A B X0 = .ok AB ∧ {tr} env A X1 = .ok AT ∧ {tr} env B X2 = .ok BT ∧
      {tr} env AB X3 = .ok R ∧ {mm} env BT AT X4 = .ok R := by
'''
    def trn(name, a, out, cl):
        return f"  obtain ⟨{name}, h{name}, e{name}{', c' + name if four else ''}⟩ := MattransM{n}_ok env {a} {out}{' ' + cl if four else ''}\n"
    b += prod('P', 'A', 'B', 'X0', 'hB') + trn('S', 'A', 'X1', 'hA') + trn('T', 'B', 'X2', 'hB') + trn('R', 'P', 'X3', 'cP') + prod('Q', 'T', 'S', 'X4', 'cS')
    b += eq('Q', 'R', 'rw [eQ, eR, eP, eS, eT, Matrix.transpose_mul]')
    b += f'''  exact ⟨P, S, T, _, hP, hS, hT, hR, hQ⟩

/-- C35: the inverse of a product is the product of the inverses in reverse order. -/
theorem C35_invsM{n} (env : Env) (A B X0 X1 X2 X3 X4 : {M}){hA.replace('hA', '_hA') if False else ''}{hB} (uA : IsUnit (mat{n} A))
    (uB : IsUnit (mat{n} B)) :
    ∃ AB AI BI R, {mm} env A B X0 = .ok AB ∧ invsM{n} A X1 = .ok AI ∧ invsM{n} B X2 = .ok BI ∧
      invsM{n} AB X3 = .ok R ∧ {mm} env BI AI X4 = .ok R := by
'''
    def inv(name, a, out, u):
        return f"  obtain ⟨{name}, h{name}, e{name}, f{name}{', c' + name if four else ''}⟩ := C13_invsM{n} {a} {out} {u}\n"
    b += prod('P', 'A', 'B', 'X0', 'hB') + f'  have uP : IsUnit (mat{n} P) := eP ▸ uA.mul uB\n'
    b += inv('S', 'A', 'X1', 'uA') + inv('T', 'B', 'X2', 'uB') + inv('R', 'P', 'X3', 'uP') + prod('Q', 'T', 'S', 'X4', 'cS')
    b += eq('Q', 'R', 'refine mat_inv_unique (A := mat%d P) ?_ eR; rw [eQ, eP, Matrix.mul_assoc, ← Matrix.mul_assoc (mat%d B), eT, Matrix.one_mul, eS]' % (n, n))
    b += f'''  exact ⟨P, S, T, _, hP, hS, hT, hR, hQ⟩
'''
    if n <= 32:
        A, B = exA(n), exB(n)
        C = transpose(n, B)
        b += f'''
example : MatMulMatM{n} exEnv exA{n} exB{n} exB{n} = .ok {litM(n, mul_mat(n, A, B))} ∧
    MattransM{n} exEnv {litM(n, mul_mat(n, A, B))} exB{n} = .ok {litM(n, transpose(n, mul_mat(n, A, B)))} ∧
    (do MatMulMatM{n} exEnv (← MattransM{n} exEnv exB{n} exA{n}) (← MattransM{n} exEnv exA{n} exA{n}) exB{n}) =
      .ok {litM(n, transpose(n, mul_mat(n, A, B)))} := by decide +kernel
'''
    b += f'''
example : ∃ A B : {M}, {'CleanM4 A ∧ CleanM4 B ∧ ' if four else ''}IsUnit (mat{n} A) ∧ IsUnit (mat{n} B) := by
  obtain ⟨⟨⟨A, B⟩, w⟩, h, hAB, {'hc1, hc2, ' if four else ''}_⟩ := genMatpairM{n}_ok exEnv exB{n} exB{n} exWorld
  exact ⟨A, B, {'hc1, hc2, ' if four else ''}⟨⟨_, _, hAB, mat_comm hAB⟩, rfl⟩, ⟨⟨_, _, mat_comm hAB, hAB⟩, rfl⟩⟩
'''
write('C35', ['Verif.Prop.C05', 'Verif.Prop.C06', 'Verif.Prop.C13', 'Verif.Proof.MulAll', EX], '# C35 — ring laws through the API', b)
