"""Generate lean/Verif/Proof/Accuracy{Lib,Sec,Com,Main}.lean and lean/Verif/Prop/C60.lean."""
import os
HERE = os.path.dirname(os.path.abspath(__file__))
ALL = [4, 8, 16, 32, 64, 128, 256]
AFF = [4, 8, 16, 32, 64, 128]
NUM = [4, 8, 16, 32, 64]
o = []
a = o.append
a('''import Verif.Proof.Accuracy
import Verif.Prop.C01
import Verif.Prop.C03
import Verif.Prop.C06
import Verif.Prop.C07
import Verif.Prop.C18
import Verif.Prop.C20

/-!
# The accuracy test: the functions of each width (helper lemmas)

Generated by `tools/gen_c60.py`.
-/
namespace WB.accuracy
open Matrix

theorem clean4_of_shift {x y : BitVec 8} (h : y >>> 4 = x >>> 4) (hx : Clean4 x) : Clean4 y := by
  unfold Clean4 at *
  have := congrArg BitVec.toNat h
  simp only [BitVec.toNat_ushiftRight, Nat.shiftRight_eq_div_pow] at this
  omega
''')
for n in ALL:
    four = n == 4
    gm = 'CleanM4' if four else '(fun _ => True)'
    gv = 'Clean4' if four else '(fun _ => True)'
    e = 'env ' if n >= 64 else ''
    t = '' if four else ', trivial'
    if four:
        st = '''    obtain ⟨B, h1, h2, h3⟩ := C09_setbitM4 A i i 1 (Or.inr rfl)
    exact ⟨B, h1, fun r c => by rw [h2]; simp, fun r => clean4_of_shift (h3 r) (hA r)⟩'''
        fl = '''    obtain ⟨B, h1, h2, h3⟩ := C09_flipbitM4 A i i
    exact ⟨B, h1, h2, fun r => clean4_of_shift (h3 r) (hA r)⟩'''
        rm = '(randM4_ok A w).mono fun _ _ h => ⟨h.1, h.2.2.2.2⟩'
        rv = '(randV4_ok x w).mono fun _ _ h => ⟨h.1, h.2.2.2.2⟩'
        gp = 'hcA, hcB, '
        mm = 'C03_MatMulMatM4 env A B Z hB'
        im = 'fun A B hA hB h => mat4_inj hA hB h'
        iv = 'fun x y hx hy h => vec4_inj hx hy h'
        go = 'hcA, hcB, hw.2.2.2'
    else:
        st = f'''    obtain ⟨B, h1, h2⟩ := C09_setbitM{n} A i i 1 (Or.inr rfl)
    exact ⟨B, h1, fun r c => by rw [h2]; simp, trivial⟩'''
        fl = f'''    obtain ⟨B, h1, h2⟩ := C09_flipbitM{n} A i i
    exact ⟨B, h1, h2, trivial⟩'''
        rm = f'(randM{n}_ok {e}A w).mono fun _ _ h => ⟨trivial, h.2.2.2⟩'
        rv = f'(randV{n}_ok {e}x w).mono fun _ _ h => ⟨trivial, h.2.2.2⟩'
        if n == 64:
            rv = '(randV64_ok env x w).mono fun _ w\' h => ⟨trivial, by obtain ⟨k, rfl⟩ := h; rfl⟩'
        gp = ''
        mm = f'by obtain ⟨D, h1, h2⟩ := C03_MatMulMatM{n} env A B Z; exact ⟨D, h1, h2, trivial⟩'
        im = f'fun A B _ _ h => mat{n}_inj h'
        iv = f'fun x y _ _ h => vec{n}_inj h'
        go = 'trivial, trivial, hw.2.2.2'
    init = f'C06_initM{n} A' if four else f'by obtain ⟨B, h1, h2⟩ := C06_initM{n} A; exact ⟨B, h1, h2, trivial⟩'
    iden = f'C06_identityM{n} A' if four else f'by obtain ⟨B, h1, h2⟩ := C06_identityM{n} A; exact ⟨B, h1, h2, trivial⟩'
    mv = f'C01_MatMulVecM{n} env A x z' if four else f'by obtain ⟨y, h1, h2⟩ := C01_MatMulVecM{n} env A x z; exact ⟨y, h1, h2, trivial⟩'
    ev = f'(C08_isequalV{n} x x).trans (by rw [if_pos rfl])' if n < 256 else '(C08_isequalV256_partial x x).trans (by rw [if_pos ⟨rfl, rfl⟩])'
    a(f'''theorem good{n} (env : Env) : Good (lib{n} env) mat{n} vec{n} {gm} {gv} where
  injM := {im}
  injV := {iv}
  initM := fun A => {init}
  identityM := fun A => {iden}
  setbitM := fun A i {"hA" if four else "_"} => by
{st}
  readbitM := fun A i => C09_readbitM{n} A i i
  flipbitM := fun A i {"hA" if four else "_"} => by
{fl}
  isequalM := fun A => (C07_isequalM{n} A A).trans (by rw [if_pos rfl])
  isequalV := fun x => {ev}
  randM := fun A w => {rm}
  randV := fun x w => {rv}
  gen := fun A0 B0 w => by
    obtain ⟨A, B, w', h, h1, h2, h3, h4, h5, -, {gp}hw⟩ := C15_genMatpairM{n} env A0 B0 w
    exact ⟨((A, B), w'), h, h1, h2, h3, h4, h5, {go}⟩
  mulV := fun A x z => {mv}
  mulM := fun A B Z {"hB" if four else "_"} => {mm}
''')
for n in NUM:
    gv = 'Clean4 y' if n == 4 else 'True'
    ex = 'h2.1, h2.2' if n == 4 else 'h2, trivial'
    a(f'''theorem num{n} (env : Env) (A : M{n}) (x : V{n}) : ∃ y, MatMulNumM{n} env A x = .ok y ∧
    vec{n} y = (mat{n} A).mulVec (vec{n} x) ∧ {gv} := by
  obtain ⟨y, h1, h2⟩ := MatMulNumM{n}_ok env A x
  exact ⟨y, h1, {ex}⟩
''')
for n in AFF:
    four = n == 4
    gf = '(fun f => CleanM4 f.Mat)' if four else '(fun _ => True)'
    gv = 'Clean4' if four else '(fun _ => True)'
    pat = '-, -, hcf, hcg, -, -, hw' if four else '-, -, hw'
    gs = 'hcf, hcg' if four else 'trivial, trivial'
    if n == 128:
        inst = '(h\'\' x z1 z2 z1 z2).1'
    elif four:
        inst = "(h'' x hx).1"
    else:
        inst = "(h'' x).1"
    if n == 128:
        mixi = 'H x z1 z2 z3'
    else:
        mixi = 'H x'
    a(f'''theorem goodA{n} (env : Env) : GoodA (affLib{n} env) {gf} {gv} where
  gen := fun f0 g0 w => by
    obtain ⟨⟨⟨f, g⟩, w'⟩, h, {pat}⟩ := genaffinepairM{n}_ok env f0 g0 w
    obtain ⟨f', g', w'', h', h''⟩ := C18_genaffinepairM{n} env f0 g0 w
    have e := h.symm.trans h'
    simp only [Except.ok.injEq, Prod.mk.injEq] at e
    obtain ⟨⟨rfl, rfl⟩, rfl⟩ := e
    exact ⟨((f, g), w'), h, {gs}, fun x z1 z2 hx => {inst}, hw.2.2.2⟩
  mix := fun f g m _ {"hg" if four else "_"} => by
    obtain ⟨M, hM, H⟩ := C19_affinemixM{n} env f g m{" hg" if four else ""}
    refine ⟨M, hM, ?_⟩
    intro x y z1 z2 z3 z h1 h2
    obtain ⟨y', z', h1', h2', h3'⟩ := {mixi}
    have e1 := h1.symm.trans h1'
    simp only [Except.ok.injEq] at e1
    subst e1
    have e2 := h2.symm.trans h2'
    simp only [Except.ok.injEq] at e2
    subst e2
    exact h3'
''')
def emit(name):
    global o, a
    open(os.path.join(HERE, f'../lean/Verif/Proof/{name}.lean'), 'w').write('\n'.join(o) + '\nend WB.accuracy\n')
    o = []
    a = o.append
emit('AccuracyLib')
a('''import Verif.Proof.AccuracyLib

/-!
# The accuracy test: the sections without concatenation (helper lemmas)

Generated by `tools/gen_c60.py`.
-/
namespace WB.accuracy
open Matrix

attribute [local irreducible] bitTest numTest vecTest matTest invTest affTest mixTest TEST
''')
# sections
def prints(name, title, lines, thm):
    texts = ', '.join(f'"{n}bit: PASS\\n"' for n in lines)
    a(f'''theorem {name}_ok (env : Env) (S : Stack) :
    Prints ["{title}", {texts}] ({name} env S) := by
  unfold {name}
  refine Prints.printf (by decide +kernel) ?_''')
    for n in lines[:-1]:
        a(f'  refine Prints.seq (a := ["{n}bit: PASS\\n"]) ({thm(n)}) ?_')
    a(f'  exact {thm(lines[-1])}\n')
P = '(by decide +kernel)'
KX = lambda n: '_ (by decide +kernel)' if n == 4 else '_ trivial'
prints('bits', '-----bitwise operation (read/set/flip) test-----\\n', ALL, lambda n: f'bitTest_ok (good{n} env) {P} _ _ _')
prints('nums', '-----mat mul num test-----\\n', NUM, lambda n: f'numTest_ok (good{n} env) _ (num{n} env) {P} {KX(n)} _ _')
prints('vecs', '-----mat mul vec test-----\\n', ALL, lambda n: f'vecTest_ok (good{n} env) {P} _ _ _ _ _')
prints('mats', '-----mat mul mat (includes mat transpositon) test-----\\n', ALL, lambda n: f'matTest_ok (good{n} env) {P} _ _ _ _ _ _ _')
prints('invs', '-----invertible and inverse test-----\\n', ALL, lambda n: f'invTest_ok (good{n} env) {P} _ _ _ _ _')
prints('affs', '-----invertible affine and affine transform test-----\\n', AFF, lambda n: f'affTest_ok (goodA{n} env) {P} {KX(n)} _ _ _ _')
prints('mixes', '-----affine mix test-----\\n', AFF, lambda n: f'mixTest_ok (goodA{n} env) {P} {KX(n)} _ _ _ _ _ _ _ _')
emit('AccuracySec')
a('''import Verif.Proof.AccuracyLib

/-!
# The accuracy test: concatenation (helper lemmas)

Generated by `tools/gen_c60.py`.
-/
namespace WB.accuracy
open Matrix

theorem blockDiag_one {k a : Nat} {B : Fin k → Matrix (Fin a) (Fin a) (ZMod 2)} (h : ∀ b, B b = 1) :
    blockDiag B = 1 := by
  ext r c
  unfold blockDiag
  rw [h, Matrix.one_apply, Matrix.one_apply]
  by_cases e : r = c
  · subst e; simp
  · rw [if_neg e]
    split_ifs with h1 h2
    · refine absurd ?_ e
      refine Fin.ext ?_
      have e1 := Fin.ext_iff.1 h1
      have e2 := Fin.ext_iff.1 h2
      simp only [Fin.coe_divNat, Fin.coe_modNat] at e1 e2
      rw [← Nat.div_add_mod r.val a, ← Nat.div_add_mod c.val a, e1, e2]
    all_goals rfl

theorem concatV_const {k a : Nat} {v : Fin k → Fin a → ZMod 2} (h : ∀ b c, v b c = 1) :
    concatV v = fun _ => 1 := by
  funext c
  exact h _ _

/-- Whether the machine is little endian. -/
def isLE (env : Env) : Bool := env.endian == .little

theorem isLE_cases (env : Env) : (env.endian = .little ∧ isLE env = true) ∨ (env.endian = .big ∧ isLE env = false) := by
  unfold isLE
  cases env.endian <;> simp
''')
for n in [8, 16, 32, 64]:
    a(f'theorem ones{n} : ∀ c, vec{n} (BitVec.allOnes {n}) c = 1 := by decide +kernel')
a('')
a('theorem ones128 : ∀ c, vec128 #v[0xffffffffffffffff, 0xffffffffffffffff] c = 1 := by decide +kernel\n')
perm = {(8, 32): 4, (8, 64): 8, (8, 128): 16, (16, 64): 4, (32, 128): 4, (16, 128): 8}
for (f, t), k in perm.items():
    hexv = '0x' + 'f' * (f // 4)
    F = f'⟨idM{f}, {hexv}⟩'
    fs = ' '.join([F] * k)
    ms = ' '.join([f'idM{f}'] * k)
    vs = ' '.join([hexv] * k)
    if t == 32: cond = 'F.Vec == 0xffffffff'
    if t == 64: cond = 'F.Vec == 0xffffffffffffffff'
    if t == 128: cond = 'F.Vec[0] == 0xffffffffffffffff && F.Vec[1] == 0xffffffffffffffff'
    ones = {32: '0xffffffff', 64: '0xffffffffffffffff', 128: '#v[0xffffffffffffffff, 0xffffffffffffffff]'}[t]
    inj = f'vec{t}_inj'
    a(f'''theorem com{f}to{t} (env : Env) (J : M{t}) (hJ : mat{t} J = 1) (old : Aff{t}) :
    ∃ F : Aff{t}, affinecomM{f}to{t} env {fs} old = .ok F ∧
      ∃ q : Int, isequalM{t} F.Mat J = .ok q ∧ (q != 0 && {cond}) = isLE env := by
  have hid : mat{f} idM{f} = 1 := mat_id idOK{f}
  obtain ⟨he, hl⟩ | ⟨he, hl⟩ := isLE_cases env
  · obtain ⟨F, hF, hM, hV⟩ := C20_affinecomM{f}to{t} env he {fs} old
    refine ⟨F, hF, 1, ?_, ?_⟩
    · rw [C07_isequalM{t}, if_pos]
      refine mat{t}_inj ?_
      rw [hM, hJ]
      refine blockDiag_one (k := {k}) (a := {f}) ?_
      intro b; fin_cases b <;> exact hid
    · have : F.Vec = {ones} := {inj} (by
        rw [hV, concatV_const (k := {k}) (a := {f})]
        · funext c
          exact (ones{t} c).symm
        · intro b c; fin_cases b <;> exact ones{f} c)
      rw [this, hl]; rfl
  · obtain ⟨M, hM, hm, -⟩ := C22_MatrixcomM{f}to{t} env he {ms} old.Mat
    obtain ⟨V, hV, -⟩ := C22_VectorcomV{f}to{t} env he {vs} old.Vec
    refine ⟨⟨M, V⟩, ?_, 0, ?_, ?_⟩
    · unfold affinecomM{f}to{t}
      rw [hM, C_pure_bind, hV]; rfl
    · rw [C07_isequalM{t}, if_neg]
      rintro rfl
      have h0 := hm 0 0
      rw [if_neg (by decide)] at h0
      have h1 := congrFun (congrFun hJ 0) 0
      rw [Matrix.one_apply_eq] at h1
      exact absurd (h1.symm.trans h0) (by decide)
    · rw [hl]; rfl
''')
emit('AccuracyCom')
a('''import Verif.Proof.AccuracySec
import Verif.Proof.AccuracyCom

/-!
# The accuracy test: the whole program (helper lemmas)

Generated by `tools/gen_c60.py`.
-/
namespace WB.accuracy
open Matrix

theorem fill_ok {τ : Type} {n : Nat} (lo hi : Nat) (hle : lo ≤ hi) (hn : hi ≤ n) (v : Vector τ n) (c : τ)
    (f : Nat → Vector τ n → C (Vector τ n)) (hf : ∀ i v, i < hi → f i v = wr v i c)
    (h0 : ∀ i, i < lo → rd v i = .ok c) :
    Ok (forUp lo hi v f) (fun v => ∀ i, i < hi → rd v i = .ok c) := by
  refine Ok.forUp (fun k v => ∀ i, i < k → rd v i = .ok c) hle h0 ?_ (fun _ h => h)
  intro i v _ hi h
  rw [hf i v hi, wr_ok _ _ _ (by omega)]
  refine ⟨_, rfl, fun j hj => ?_⟩
  rw [rd_ok _ _ (by omega)]
  by_cases e : j = i
  · subst e; simp
  · rw [Vector.getElem_set_ne _ _ (by omega)]
    have := h j (by omega)
    rwa [rd_ok _ _ (by omega)] at this

theorem report_le {p e : String} (hp : p.toList.contains '%' = false) (he : e.toList.contains '%' = false) (b : Bool)
    (flag : Int) (w : World) :
    OkM (report p e b flag) w (fun f w' => f = (if b then flag else 0) ∧
      w'.out = w.out ++ chars [if b then p else e]) := by
  cases b
  · exact report_false he flag w
  · exact report_true hp flag w
''')
texts = lambda word: ', '.join(f'"{f}to{t}: {word}\\n"' for (f, t) in [(8, 32), (8, 64), (8, 128), (16, 64), (32, 128), (16, 128)])
both = lambda f, t: f'if isLE env then "{f}to{t}: PASS\\n" else "{f}to{t}: ERROR\\n"'
bl = ',\n        '.join(both(f, t) for (f, t) in [(8, 32), (8, 64), (8, 128), (16, 64), (32, 128), (16, 128)])
a(f'''theorem coms_ok (env : Env) (S : Stack) (flag : Int) (w : World) :
    OkM (coms env S flag) w (fun f w' => f = (if isLE env then flag else 0) ∧
      w'.out = w.out ++ chars ["-----affine concatenation test-----\\n",
        {bl}]) := by
  unfold coms
  refine OkM.bind (printf_plain (by decide +kernel) w) ?_
  intro _ w0 h0
  obtain ⟨i32, e32, m32⟩ := C06_identityM32 (S.a32 7).Mat
  obtain ⟨i64, e64, m64⟩ := C06_identityM64 (S.a64 7).Mat
  obtain ⟨i128, e128, m128⟩ := C06_identityM128 (S.a128 7).Mat
  refine lift_step e32 ?_
  refine lift_step e64 ?_
  refine lift_step e128 ?_
  obtain ⟨acm8, e8, r8⟩ := fill_ok 0 16 (by omega) (le_refl 16) (Vector.ofFn fun i : Fin 16 => S.a8 (10 + i)) ⟨idM8, 0xff⟩
    (fun i acm8 => do
      let Mat ← identityM8 (← rd acm8 i).Mat
      wr acm8 i ⟨Mat, 0xff⟩)
    (fun i v hi => by
      rw [rd_ok _ _ (by omega)]
      simp only [C_pure_bind]
      rw [identityM8_eq, C_pure_bind]) (fun i h => absurd h (by omega))
  refine lift_step e8 ?_''')
wi = [0]
def step(f, t, k, arr, prev, last=False):
    rds = ', '.join(f'r{arr} {i} (by omega)' for i in range(k))
    i = wi[0]
    a(f'''  obtain ⟨F{i}, hF{i}, q{i}, hq{i}, hc{i}⟩ := com{f}to{t} env i{t} m{t} {prev}
  refine lift_step (a := F{i}) (by rw [{rds}]; simp only [C_pure_bind]; exact hF{i}) ?_
  refine lift_step hq{i} ?_
  rw [hc{i}]
  {"refine (report_le (by decide +kernel) (by decide +kernel) _ _ w%d).mono ?_" % i if last else
   "refine OkM.bind (report_le (by decide +kernel) (by decide +kernel) _ _ w%d) ?_" % i}
  rintro f{i} w{i+1} ⟨hf{i}, h{i+1}⟩''')
    wi[0] += 1
step(8, 32, 4, 8, '(S.a32 8)')
step(8, 64, 8, 8, '(S.a64 8)')
step(8, 128, 16, 8, '(S.a128 8)')
a('''  obtain ⟨⟨acm16, acm32⟩, e16, r16, r32⟩ : Ok
    (forUp 0 4 ((Vector.ofFn fun i : Fin 8 => S.a16 (10 + i)), (Vector.ofFn fun i : Fin 4 => S.a32 (10 + i)))
      fun i (acm16, acm32) => do
        let Mat ← identityM16 (← rd acm16 i).Mat
        let acm16 ← wr acm16 i ⟨Mat, 0xffff⟩
        let Mat ← identityM32 (← rd acm32 i).Mat
        let acm32 ← wr acm32 i ⟨Mat, 0xffffffff⟩
        pure (acm16, acm32))
    (fun p => (∀ i, i < 4 → rd p.1 i = .ok ⟨idM16, 0xffff⟩) ∧ ∀ i, i < 4 → rd p.2 i = .ok ⟨idM32, 0xffffffff⟩) := by
    refine Ok.forUp (fun k p => (∀ i, i < k → rd p.1 i = .ok ⟨idM16, 0xffff⟩) ∧
      ∀ i, i < k → rd p.2 i = .ok ⟨idM32, 0xffffffff⟩) (by omega)
      ⟨fun i h => absurd h (by omega), fun i h => absurd h (by omega)⟩ ?_ (fun _ h => h)
    rintro i ⟨x, y⟩ _ hi ⟨hx, hy⟩
    simp only
    rw [rd_ok x i (by omega), rd_ok y i (by omega)]
    simp only [C_pure_bind]
    rw [identityM16_eq, C_pure_bind, wr_ok _ _ _ (by omega), C_pure_bind, identityM32_eq, C_pure_bind,
      wr_ok _ _ _ (by omega), C_pure_bind]
    refine ⟨_, rfl, fun j hj => ?_, fun j hj => ?_⟩
    · rw [rd_ok _ _ (by omega)]
      by_cases e : j = i
      · subst e; simp
      · have := hx j (by omega)
        rw [rd_ok _ _ (by omega)] at this
        simpa [Vector.getElem_set_ne _ _ (Ne.symm e)] using this
    · rw [rd_ok _ _ (by omega)]
      by_cases e : j = i
      · subst e; simp
      · have := hy j (by omega)
        rw [rd_ok _ _ (by omega)] at this
        simpa [Vector.getElem_set_ne _ _ (Ne.symm e)] using this
  refine lift_step e16 ?_
  simp only
  obtain ⟨bcm16, f16, s16⟩ := fill_ok 4 8 (by omega) (le_refl 8) acm16 ⟨idM16, 0xffff⟩
    (fun i acm16 => do
      let Mat ← identityM16 (← rd acm16 i).Mat
      wr acm16 i ⟨Mat, 0xffff⟩)
    (fun i v hi => by
      rw [rd_ok _ _ (by omega)]
      simp only [C_pure_bind]
      rw [identityM16_eq, C_pure_bind]) r16
  refine lift_step f16 ?_''')
o16 = len(o)
step(16, 64, 4, 16, 'F1')
step(32, 128, 4, 32, 'F2')
step(16, 128, 8, 16, 'F4', True)
for i in range(o16, len(o)):
    o[i] = o[i].replace('r16 ', 's16 ')
a('''  refine ⟨?_, ?_⟩
  · rw [hf5, hf4, hf3, hf2, hf1, hf0]
    cases isLE env <;> rfl
  · rw [h6, h5, h4, h3, h2, h1, h0]
    simp [chars]

end WB.accuracy''')

sections = [('-----bitwise operation (read/set/flip) test-----', ALL), ('-----mat mul num test-----', NUM), ('-----mat mul vec test-----', ALL),
  ('-----mat mul mat (includes mat transpositon) test-----', ALL), ('-----invertible and inverse test-----', ALL),
  ('-----invertible affine and affine transform test-----', AFF), ('-----affine mix test-----', AFF)]
ls = []
for t, w in sections:
    ls.append(f'"{t}\\n"')
    ls += [f'"{n}bit: PASS\\n"' for n in w]
head = []
row = ''
for t, w in sections:
    head.append('   "%s\\n", ' % t + ', '.join(f'"{n}bit: PASS\\n"' for n in w))
body = ',\n'.join(head)
p = []
b = p.append
b(f'''import Verif.Proof.AccuracyMain
import Verif.Prop.Examples

/-!
# C60 — what the accuracy test of the library prints

Generated by `tools/gen_c60.py`.
-/
namespace WB
open accuracy

/-- The lines about everything but concatenation when all tests pass. -/
def passLines : List String :=
  [{body.strip()}]

/-- The text of a list of strings. -/
def textOf (l : List String) : List Char := (l.map String.toList).flatten

/-- C60: on a little-endian machine the accuracy test prints `PASS` on every line and ends with `ALL PASS!`; no seed,
clock, generator state or stack contents can make it print anything else. -/
theorem C60_accuracy_little (env : Env) (he : env.endian = .little) (S : Stack) (w : World) :
    ∃ w', main env S w = .ok (0, w') ∧
      w'.out = w.out ++ textOf (passLines ++ ["-----affine concatenation test-----\\n",
        {texts("PASS")}, "\\nALL PASS!"]) := by
  obtain ⟨⟨r, w'⟩, h, hr, ho⟩ := main_ok env S w
  rw [show isLE env = true by unfold isLE; rw [he]; rfl] at ho
  refine ⟨w', ?_, ho⟩
  rw [h]; exact congrArg (fun r => Except.ok (r, w')) hr

/-- C60: on a big-endian machine the six lines about concatenation report `ERROR`, every other line is `PASS`, and
the program ends with `ERROR!` (and still returns 0). -/
theorem C60_accuracy_big (env : Env) (he : env.endian = .big) (S : Stack) (w : World) :
    ∃ w', main env S w = .ok (0, w') ∧
      w'.out = w.out ++ textOf (passLines ++ ["-----affine concatenation test-----\\n",
        {texts("ERROR")}, "\\nERROR!"]) := by
  obtain ⟨⟨r, w'⟩, h, hr, ho⟩ := main_ok env S w
  rw [show isLE env = false by unfold isLE; rw [he]; rfl] at ho
  refine ⟨w', ?_, ho⟩
  rw [h]; exact congrArg (fun r => Except.ok (r, w')) hr

/-- Arbitrary contents of the variables of `main`. -/
def exStack : Stack where''')
for n in ALL:
    b(f'  m{n} := fun k => if k % 2 = 0 then exA{n} else exB{n}')
for n in ALL:
    b(f'  v{n} := fun _ => exX{n}')
for n in AFF:
    b(f'  a{n} := fun _ => ⟨exB{n}, exX{n}⟩')
b('''
example : ∃ w', main exEnv exStack exWorld = .ok (0, w') := by
  obtain ⟨w', h, -⟩ := C60_accuracy_little exEnv rfl exStack exWorld
  exact ⟨w', h⟩
example : ∃ w', main exEnvBE exStack exWorld = .ok (0, w') := by
  obtain ⟨w', h, -⟩ := C60_accuracy_big exEnvBE rfl exStack exWorld
  exact ⟨w', h⟩
example : passLines.length = 52 := by decide

end WB''')
# main: sequential binds
mainlem = f'''
/-- The lines about everything but concatenation. -/
def headLines : List String :=
  [{body.strip()}]

theorem main_ok (env : Env) (S : Stack) (w : World) :
    OkM (main env S) w (fun r w' => r = 0 ∧ w'.out = w.out ++ chars (headLines ++ ["-----affine concatenation test-----\\n",
        {bl},
        if isLE env then "\\nALL PASS!" else "\\nERROR!"])) := by
  unfold main
'''
prev = 'w'
flag = '1'
for i, s in enumerate(['bits', 'nums', 'vecs', 'mats', 'invs', 'affs', 'mixes']):
    mainlem += f'''  refine OkM.bind ({s}_ok env S _ _) ?_
  rintro _ w{i+1} ⟨rfl, h{i+1}⟩
'''
mainlem += '''  refine OkM.bind (coms_ok env S _ _) ?_
  rintro f w8 ⟨rfl, h8⟩
  suffices e : OkM (if (if isLE env then (1 : Int) else 0) != 0 then (do printf "\\nALL PASS!" []; pure 0)
      else (do printf "\\nERROR!" []; pure 0)) w8
      (fun r w' => r = (0 : Int) ∧ w'.out = w8.out ++ chars [if isLE env then "\\nALL PASS!" else "\\nERROR!"]) by
    refine e.mono ?_
    rintro r w9 ⟨rfl, h9⟩
    refine ⟨rfl, ?_⟩
    rw [h9, h8, h7, h6, h5, h4, h3, h2, h1]
    simp only [List.append_assoc, ← chars_append]
    rfl
  cases isLE env
  · refine OkM.bind (printf_plain (s := "\\nERROR!") (by decide +kernel) w8) ?_
    intro _ w' h
    rw [OkM.pure_iff]
    exact ⟨rfl, by rw [h]; simp [chars]⟩
  · refine OkM.bind (printf_plain (s := "\\nALL PASS!") (by decide +kernel) w8) ?_
    intro _ w' h
    rw [OkM.pure_iff]
    exact ⟨rfl, by rw [h]; simp [chars]⟩

end WB.accuracy'''
s = '\n'.join(o)
s = s[:s.rindex('\nend WB.accuracy')] + mainlem
open(os.path.join(HERE, '../lean/Verif/Proof/AccuracyMain.lean'), 'w').write(s + '\n')
open(os.path.join(HERE, '../lean/Verif/Prop/C60.lean'), 'w').write('\n'.join(p) + '\n')
