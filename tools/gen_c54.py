#!/usr/bin/env python3
"""Writes lean/Verif/Prop/C54.lean."""
o = ["""import Verif.Proof.OldRand
import Verif.Prop.Examples

/-!
# C54 — the older library bundled with the demos and the current one

Functions of the older version 3.1.1 are in the namespace `old`; those that are not there have the same text in both
versions.
-/
namespace WB
open Matrix

set_option maxRecDepth 20000
"""]
for n in (4, 8, 16, 32, 64, 128):
    cA = " (hA : CleanM4 A)" if n == 4 else ""
    cB = " (hB : CleanM4 B)" if n == 4 else ""
    cg = " (hg : CleanM4 g.Mat)" if n == 4 else ""
    aA = " hA" if n == 4 else ""
    aB = " hB" if n == 4 else ""
    ag = " hg" if n == 4 else ""
    o.append(f"""/-! ## {n} -/

/-- C54: both versions of `isequalM{n}` agree. -/
theorem C54_isequalM{n} (A B : M{n}) : old.isequalM{n} A B = isequalM{n} A B := old_isequalM{n}_eq A B

/-- C54: both versions of `isequalV{n}` agree. -/
theorem C54_isequalV{n} (x y : V{n}) : old.isequalV{n} x y = isequalV{n} x y := old_isequalV{n}_eq x y

/-- C54: both versions of `MattransM{n}` agree{" on matrices without dirt" if n == 4 else ""}, whatever the outputs and the stack contained before. -/
theorem C54_MattransM{n} (env : Env) (A T0 T1 : M{n}){cA} : old.MattransM{n} A T0 = MattransM{n} env A T1 :=
  old_Mattrans{n}_eq env A T0 T1{aA}

/-- C54: both versions of `MatMulMatM{n}` agree{" if the right factor has no dirt" if n == 4 else ""}. -/
theorem C54_MatMulMatM{n} (env : Env) (A B C0 : M{n}){cB} : old.MatMulMatM{n} env A B C0 = MatMulMatM{n} env A B C0 :=
  old_MatMulMat{n}_eq env A B C0{aB}

/-- C54: both versions of `affinemixM{n}` agree{" if the inner matrix has no dirt" if n == 4 else ""}. -/
theorem C54_affinemixM{n} (env : Env) (f g m : Aff{n}){cg} : old.affinemixM{n} env f g m = affinemixM{n} env f g m :=
  old_affinemix{n}_eq env f g m{ag}

/-- C54: both versions of `genMatpairM{n}` return the same pair and leave the same state behind. -/
theorem C54_genMatpairM{n} (env : Env) (A B : M{n}) (w : World) : old.genMatpairM{n} env A B w = genMatpairM{n} env A B w := by
  rw [old_genMatpair{n}_eq]
""")
    ex = [f"example : old.isequalM{n} exA{n} exA{n} = .ok 1 ∧ old.isequalM{n} exA{n} exB{n} = .ok 0 := by decide +kernel",
          f"example : old.isequalV{n} exX{n} exX{n} = .ok 1 := by decide +kernel",
          f"example : (do old.MattransM{n} (← old.MattransM{n} exB{n} exA{n}) exA{n}) = .ok exB{n} := by decide +kernel"]
    if n >= 64:
        ex.pop()
    if n == 4:
        ex.append("example : CleanM4 exA4 ∧ CleanM4 exB4 := by decide")
    o.append("\n".join(ex) + "\n")
    if n <= 16:
        o.append(f"""/-- C54: both versions of `genaffinepairM{n}` return the same pair and leave the same state behind. -/
theorem C54_genaffinepairM{n} (env : Env) (f g : Aff{n}) (w : World) :
    old.genaffinepairM{n} env f g w = genaffinepairM{n} env f g w := by
  rw [old_genaffinepair{n}_eq]
""")
    else:
        if n == 128:
            zs = " (z1 z2 z3 z4 : Vector (BitVec 64) 2)"; xt = "Vector (BitVec 64) 2"; z = [" z1", " z2", " z3", " z4"]
            iz = " z1 z2 z3 z4"
        else:
            zs = ""; xt = f"BitVec {n}"; z = [""] * 4; iz = ""
        cur = {32: "randV32_run", 64: "randV64_run env", 128: "randV128_run env"}[n]
        o.append(f"""/-- C54: the two versions of `genaffinepairM{n}` choose the same matrices; the older one may choose other vectors, but
its two results are inverse to each other as well. -/
theorem C54_genaffinepairM{n} (env : Env) (f0 g0 : Aff{n}) (w : World) :
    ∃ f g w' f' g' w'', old.genaffinepairM{n} env f0 g0 w = .ok ((f, g), w') ∧
      genaffinepairM{n} env f0 g0 w = .ok ((f', g'), w'') ∧ f.Mat = f'.Mat ∧ g.Mat = g'.Mat ∧
      ∀ (x : {xt}){zs},
        (∃ y, affineU{n} env f x{z[0]} = .ok y ∧ affineU{n} env g y{z[1]} = .ok x) ∧
        (∃ y, affineU{n} env g x{z[2]} = .ok y ∧ affineU{n} env f y{z[3]} = .ok x) := by
  obtain ⟨⟨⟨A, B⟩, w1⟩, h, hAB, -⟩ := genMatpairM{n}_ok env f0.Mat g0.Mat w
  obtain ⟨⟨v, w2⟩, r⟩ : ∃ p, old.randV{n} env f0.Vec w1 = .ok p := ⟨_, old_randV{n}_run env f0.Vec w1⟩
  obtain ⟨⟨v', w2'⟩, r'⟩ : ∃ p, randV{n} {"" if n == 32 else "env "}f0.Vec w1 = .ok p := ⟨_, {cur} f0.Vec w1⟩
  obtain ⟨u, hu, hv⟩ := MatMulVecM{n}_ok env B v g0.Vec
  obtain ⟨u', hu', -⟩ := MatMulVecM{n}_ok env B v' g0.Vec
  refine ⟨⟨A, v⟩, ⟨B, u⟩, w2, ⟨A, v'⟩, ⟨B, u'⟩, w2', ?_, ?_, rfl, rfl, ?_⟩
  · unfold old.genaffinepairM{n}
    rw [old_genMatpair{n}_eq, CM_bind_run h]
    simp only
    rw [CM_bind_run r]
    exact CM_bind_run (liftC_run _ hu)
  · unfold genaffinepairM{n}
    rw [CM_bind_run h]
    simp only
    rw [CM_bind_run r']
    exact CM_bind_run (liftC_run _ hu')
  · intro x{iz}
    constructor
    · obtain ⟨y, hy, e1⟩ := affineU{n}_ok env ⟨A, v⟩ x{z[0]}
      obtain ⟨x', hx', e2⟩ := affineU{n}_ok env ⟨B, u⟩ y{z[1]}
      have e : x' = x := vec{n}_inj (by rw [e2, e1, hv]; exact aff_cancel (mat_comm hAB) _ _)
      exact ⟨y, hy, e ▸ hx'⟩
    · obtain ⟨y, hy, e1⟩ := affineU{n}_ok env ⟨B, u⟩ x{z[2]}
      obtain ⟨x', hx', e2⟩ := affineU{n}_ok env ⟨A, v⟩ y{z[3]}
      have e : x' = x := vec{n}_inj (by rw [e2, e1, hv]; exact aff_cancel' hAB _ _)
      exact ⟨y, hy, e ▸ hx'⟩

/-- C54: the two versions of `randV{n}` differ: there is a state in which they return different vectors. -/
theorem C54_randV{n}_differs : ∃ (env : Env) (w : World) (x y : V{n}) (w' w'' : World), old.randV{n} env exX{n} w = .ok (x, w') ∧
    randV{n} {"" if n == 32 else "env "}exX{n} w = .ok (y, w'') ∧ x ≠ y :=
  ⟨exEnv, exWorld, _, _, _, _, old_randV{n}_run _ _ _, {cur.replace(" env", " _")} _ _, by decide +kernel⟩

/-- C54: the older `randV{n}` is determined by the seed: two runs in states with the same seed and clock reading give the
same vector, whatever the states of the generator and the previous contents. -/
theorem C54_old_randV{n}_seeded (env env' : Env) (he : env.endian = env'.endian) (X X' : V{n}) (w w' : World)
    (h : w.randseed ^^^ w.clock w.now = w'.randseed ^^^ w'.clock w'.now) :
    ∃ r v v', old.randV{n} env X w = .ok (r, v) ∧ old.randV{n} env' X' w' = .ok (r, v') := by
  have hs : GenEq w.seeded w'.seeded := seeded_congr h
  refine ⟨_, _, w'.seeded.adv {n // 16}, old_randV{n}_run env X w, ?_⟩
  · rw [old_randV{n}_run env' X' w']
    congr 2
    {"rw [half_congr hs, half_congr hs, pair32_congr he]" if n == 32 else
     "rw [half_congr hs, half_congr hs, half_congr hs, half_congr hs, quad64_congr he]" if n == 64 else
     "rw [half_congr hs 0, half_congr hs 1, half_congr hs 2, half_congr hs 3, half_congr hs 4, half_congr hs 5, half_congr hs 6, half_congr hs 7, quad64_congr he, quad64_congr he]"}

example : (exWorld.randseed ^^^ exWorld.clock exWorld.now) =
    (⟨5, 99, 1, exWorld.clock, 1, ['a']⟩ : World).randseed ^^^ exWorld.clock 1 := by decide
""")
    if n == 64:
        o.append("""/-- C54: the older `randV64` obeys the seed; the current one ignores it (C32). -/
theorem C54_old_randV64_uses_seed (env : Env) (he : env.endian = .little) (X : V64) :
    ∃ s t w r r' v v', (do SetRandSeed s; old.randV64 env X) w = .ok (r, v) ∧
      (do SetRandSeed t; old.randV64 env X) w = .ok (r', v') ∧ r ≠ r' := by
  have e : ∀ s w, SetRandSeed s w = .ok ((), { w with randseed := s }) := fun _ _ => rfl
  refine ⟨1, 2, ⟨0, 0, 0, fun _ => 0, 0, []⟩, _, _, _, _, (CM_bind_run (e _ _)).trans (old_randV64_run _ _ _),
    (CM_bind_run (e _ _)).trans (old_randV64_run _ _ _), ?_⟩
  · rw [quad64_congr (env' := ⟨.little, fun _ _ => 0⟩) he, quad64_congr (env' := ⟨.little, fun _ _ => 0⟩) he]
    decide +kernel
""")
    if n == 4:
        o.append("""/-- C54: the older `MattransM4` is correct on every matrix, with or without dirt in the high nibbles. -/
theorem C54_old_MattransM4_any (A T0 : M4) : ∃ T, old.MattransM4 A T0 = .ok T ∧ mat4 T = (mat4 A)ᵀ ∧ CleanM4 T :=
  old_Mattrans4_ok A T0

/-- C54: the older `MatMulMatM4` is correct on all matrices, with or without dirt in the high nibbles. -/
theorem C54_old_MatMulMatM4_any (env : Env) (A B C0 : M4) :
    ∃ P, old.MatMulMatM4 env A B C0 = .ok P ∧ mat4 P = mat4 A * mat4 B ∧ CleanM4 P :=
  old_MatMulMat4_ok env A B C0

/-- C54: on a matrix with dirt the two versions of `MattransM4` differ. -/
theorem C54_MattransM4_differs (env : Env) : ∃ A, ∀ T0 T1, ∃ X Y, old.MattransM4 A T0 = .ok X ∧ MattransM4 env A T1 = .ok Y ∧
    mat4 X ≠ mat4 Y := by
  refine ⟨#v[8, 0x14, 2, 1], fun T0 T1 => ?_⟩
  obtain ⟨X, hX, h, -⟩ := old_Mattrans4_ok #v[8, 0x14, 2, 1] T0
  refine ⟨X, _, hX, trans4_eval env _ _ _ _ T1, ?_⟩
  rw [h]
  decide

/-- C54: with dirt in the right factor the two versions of `MatMulMatM4` differ. -/
theorem C54_MatMulMatM4_differs (env : Env) : ∃ A B, ∀ C0, ∃ X Y, old.MatMulMatM4 env A B C0 = .ok X ∧
    MatMulMatM4 env A B C0 = .ok Y ∧ mat4 X ≠ mat4 Y := by
  refine ⟨#v[8, 4, 2, 1], #v[8, 0x14, 2, 1], fun C0 => ?_⟩
  obtain ⟨X, hX, h, -⟩ := old_MatMulMat4_ok env #v[8, 4, 2, 1] #v[8, 0x14, 2, 1] C0
  obtain ⟨Y, hY, h', -⟩ := MatMulMatM4_any env #v[8, 4, 2, 1] #v[8, 0x14, 2, 1] C0
  refine ⟨X, Y, hX, hY, ?_⟩
  rw [h, h']
  decide

example : old.MattransM4 #v[0xf8, 0xf4, 0xf2, 0xe1] exB4 = .ok #v[8, 4, 2, 1] := by decide +kernel
""")
o.append("end WB\n")
open('/verif/lean/Verif/Prop/C54.lean', 'w').write("\n".join(o))
