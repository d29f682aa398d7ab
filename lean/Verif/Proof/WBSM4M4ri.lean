import Verif.Proof.WBSM4M4riTab
import Verif.Prop.C68
import Verif.Prop.C70

/-!
# The M4RI based SM4 demo computes SM4 (helper lemmas)
-/
namespace WB.m4ri.sm4
open WB.sm4 WB.wbsm4 SM4

variable {lib : M4ri} {s s' s'' : Heap} {T T' : Finset Nat} {k : Nat}

attribute [local irreducible] S L tau lin ap32 ap8

/-- The functions of one round. -/
structure Round where
  m : Nat → Aff32
  c : Aff32
  d : Aff32

/-- The transform denotes `f` and does not share a matrix with `c`. -/
structure Afar (s : Heap) (T : Finset Nat) (c : Nat) (a : AffineTransform) (f : Aff32) : Prop where
  aff : A32 s T a f
  away : Away c a

theorem Afar.ext {c : Nat} {a : AffineTransform} {f : Aff32} (h : Afar s T c a f) (x : Ext k s T s' T') :
    Afar s' T' c a f := ⟨x.a32 h.aff, h.away⟩

/-- The transforms of round `i` denote the functions `Rd`. -/
structure RoundRel (s : Heap) (T : Finset Nat) (c : Nat) (ctx : Sm4Whitebox) (i : Nat) (Rd : Round) : Prop where
  M : ∀ j, j < 3 → Afar s T c (ctx.M[i]!)[j]! (Rd.m j)
  C : Afar s T c ctx.C[i]! Rd.c
  D : Afar s T c ctx.D[i]! Rd.d

/-- What the functions of round `i` and the lookup tables are. -/
structure RoundEq (R : Nat → Row) (sk : Vector (Vector (Vector (BitVec 8) 256) 4) 32)
    (Tab : Vector (Vector (Vector (BitVec 32) 256) 4) 32) (i : Nat) (Rd : Round) : Prop where
  M : ∀ j, j < 3 → ∀ x, ap32 (Rd.m j) x = ap32 (R i).ec (ap32 ((R (i + 1 + j)).p 1) x)
  T : ∀ d k, d < 4 → k < 256 → ((Tab[i]!)[d]!)[k]! =
    lin ((R i).q 0).Mat (L (placed d ((sk[i]!)[d]!)[(ap8 ((R i).e d 0) (BitVec.ofNat 8 k)).toNat]!)) ^^^
      (if d = 3 then ((R i).q 0).Vec else 0)
  C : ∀ x, ap32 Rd.c x = ap32 ((R (i + 4)).p 0) (ap32 ((R i).p 1) x)
  D : ∀ x, ap32 Rd.d x = ap32 ((R (i + 4)).p 0) (ap32 ((R i).q 1) x) ^^^ ((R (i + 4)).p 0).Vec

/-- Round `x` of both is the same. -/
structure SameRound (ctx ctx' : Sm4Whitebox) (x : Nat) : Prop where
  M : ∀ k, k < 3 → (ctx'.M[x]!)[k]! = (ctx.M[x]!)[k]!
  C : ctx'.C[x]! = ctx.C[x]!
  D : ctx'.D[x]! = ctx.D[x]!
  T : ∀ d k, d < 4 → k < 256 → ((ctx'.Table[x]!)[d]!)[k]! = ((ctx.Table[x]!)[d]!)[k]!

theorem RoundRel.congr {c : Nat} {ctx ctx' : Sm4Whitebox} {i : Nat} {Rd : Round} (h : RoundRel s T c ctx i Rd)
    (hs : SameRound ctx ctx' i) (x : Ext k s T s' T') : RoundRel s' T' c ctx' i Rd where
  M j hj := by rw [hs.M j hj]; exact (h.M j hj).ext x
  C := by rw [hs.C]; exact h.C.ext x
  D := by rw [hs.D]; exact h.D.ext x

theorem RoundEq.congr {R : Nat → Row} {sk : Vector (Vector (Vector (BitVec 8) 256) 4) 32} {ctx ctx' : Sm4Whitebox}
    {i : Nat} {Rd : Round} (h : RoundEq R sk ctx.Table i Rd) (hs : SameRound ctx ctx' i) :
    RoundEq R sk ctx'.Table i Rd :=
  ⟨h.M, fun d k hd hk => by rw [hs.T d k hd hk]; exact h.T d k hd hk, h.C, h.D⟩

theorem combineRound_run (hl : lib.Ok) (ho : Own s T) {v : Locals} (hv : Loc T v) {g : Globals} {i : Nat} (hi : i < 32)
    {R : Nat → Row} (hR : ∀ x, x < 36 → RowRel s T g x (R x)) {c : Nat} (hc : Holds s T c (mat32 csl)) (ctx : Sm4Whitebox) :
    Run (combineRound lib g c i ctx v) s fun r s' => ∃ T', Ext 10 s T s' T' ∧ Loc T' r.2 ∧
      (∃ Rd, RoundRel s' T' c r.1 i Rd ∧ RoundEq R g.skbox_enc r.1.Table i Rd) ∧
      ∀ x, x < 32 → x ≠ i → SameRound ctx r.1 x := by
  rw [combineRound]
  have hE : ∀ s', Run (liftC (rd3 g.E i 4 1)) s' fun a s2 => s2 = s' ∧ a = ((g.E[i]!)[4]!)[1]! := fun s' =>
    Run.of_eq (liftC_run s' (rd3_get g.E (show i < 36 by omega) (show 4 < 5 by omega) (show 1 < 2 by omega))) ⟨rfl, rfl⟩
  refine Run.step (liftC_run s (rd3_get g.E (show i < 36 by omega) (show 4 < 5 by omega) (show 1 < 2 by omega))) ?_
  refine Run.step (liftC_run s (rd2_get g.P (show i + 1 < 36 by omega) (show 1 < 2 by omega))) ?_
  refine Run.bind (mixM_run hl ho hv (hR i (by omega)).EC ((hR (i + 1) (by omega)).P 1 (by omega))) ?_
  rintro ⟨m0, t0⟩ s1 h0
  have w0 := h0.away hc
  obtain ⟨T1, x1, v1, ⟨f0, a0, q0⟩, -, -, -⟩ := h0
  simp only at v1 a0 w0
  obtain ⟨M1, hM1, gM1⟩ := wr2_get ctx.M (i := i) (k := 0) hi (by omega) m0
  refine Run.step (liftC_run s1 hM1) ?_
  refine Run.step (liftC_run s1 (rd3_get g.E (show i < 36 by omega) (show 4 < 5 by omega) (show 1 < 2 by omega))) ?_
  refine Run.step (liftC_run s1 (rd2_get g.P (show i + 2 < 36 by omega) (show 1 < 2 by omega))) ?_
  refine Run.bind (mixM_run hl x1.own v1 (x1.a32 (hR i (by omega)).EC)
    (x1.a32 ((hR (i + 2) (by omega)).P 1 (by omega)))) ?_
  rintro ⟨m1, t1⟩ s2 h1
  have w1 := h1.away (x1.holds hc)
  obtain ⟨T2, x2, v2, ⟨f1, a1, q1⟩, -, -, -⟩ := h1
  simp only at v2 a1 w1
  obtain ⟨M2, hM2, gM2⟩ := wr2_get M1 (i := i) (k := 1) hi (by omega) m1
  have x02 := x1.trans x2
  refine Run.step (liftC_run s2 hM2) ?_
  refine Run.step (liftC_run s2 (rd3_get g.E (show i < 36 by omega) (show 4 < 5 by omega) (show 1 < 2 by omega))) ?_
  refine Run.step (liftC_run s2 (rd2_get g.P (show i + 3 < 36 by omega) (show 1 < 2 by omega))) ?_
  refine Run.bind (mixM_run hl x2.own v2 (x02.a32 (hR i (by omega)).EC)
    (x02.a32 ((hR (i + 3) (by omega)).P 1 (by omega)))) ?_
  rintro ⟨m2, t2⟩ s3 h2
  have w2 := h2.away (x02.holds hc)
  obtain ⟨T3, x3, v3, ⟨f2, a2, q2⟩, -, -, -⟩ := h2
  simp only at v3 a2 w2
  obtain ⟨M3, hM3, gM3⟩ := wr2_get M2 (i := i) (k := 2) hi (by omega) m2
  have x03 := x02.trans x3
  refine Run.step (liftC_run s3 hM3) ?_
  refine Run.bind (encTables_run hl x3.own v3 hi (Ext.row x03 (hR i (by omega))) (x03.holds hc) ctx.Table) ?_
  rintro ⟨Tab, v4⟩ s4 ⟨T4, x4, l4, hT⟩
  simp only at l4 hT
  have x04 := x03.trans x4
  refine Run.step (liftC_run s4 (rd2_get g.P (show i + 4 < 36 by omega) (show 0 < 2 by omega))) ?_
  refine Run.step (liftC_run s4 (rd2_get g.P (show i < 36 by omega) (show 1 < 2 by omega))) ?_
  refine Run.bind (mixCD_run hl x4.own l4 (x04.a32 ((hR (i + 4) (by omega)).P 0 (by omega)))
    (x04.a32 ((hR i (by omega)).P 1 (by omega)))) ?_
  rintro ⟨cc, t5⟩ s5 h5
  have w5 := h5.away (x04.holds hc)
  obtain ⟨T5, x5, v5, ⟨f5, a5, q5⟩, -, -, -⟩ := h5
  simp only at v5 a5 w5
  obtain ⟨C1, hC1, gC1⟩ := wr_get ctx.C (i := i) hi cc
  have x05 := x04.trans x5
  refine Run.step (liftC_run s5 hC1) ?_
  refine Run.step (liftC_run s5 (rd2_get g.P (show i + 4 < 36 by omega) (show 0 < 2 by omega))) ?_
  refine Run.step (liftC_run s5 (rd2_get g.Q (show i < 36 by omega) (show 1 < 2 by omega))) ?_
  refine Run.bind (mixCD_run hl x5.own v5 (x05.a32 ((hR (i + 4) (by omega)).P 0 (by omega)))
    (x05.a32 ((hR i (by omega)).Q 1 (by omega)))) ?_
  rintro ⟨dd, t6⟩ s6 h6
  have w6 := h6.away (x05.holds hc)
  obtain ⟨T6, x6, v6, ⟨f6, a6, q6⟩, n6, nv6, ne6⟩ := h6
  simp only at v6 a6 w6 n6 nv6 ne6
  have x06 := x05.trans x6
  refine Run.step (liftC_run s6 (rd2_get g.P (show i + 4 < 36 by omega) (show 0 < 2 by omega))) ?_
  have p6 := x06.a32 ((hR (i + 4) (by omega)).P 0 (by omega))
  refine Run.bind ((add_to x6.own.ok p6.vec.1 a6.vec.1 (.inr ⟨_, a6.vec.1.choose_spec.1⟩)).swap (k := 1)
    x5.own.ok x6 nv6 a6.vec.1 a6.vec.2) ?_
  rintro dv s7 ⟨x7, pv, ndv, tdv, f7, -⟩
  have hdl := f7.points a6.lin.1 ne6
  obtain ⟨D1, hD1, gD1⟩ := wr_get ctx.D (i := i) hi { dd with vector_translation := dv }
  refine Run.step (liftC_run s7 hD1) ?_
  have x57 := x5.trans x7
  have x47 := x4.trans x57
  have x37 := x3.trans x47
  have x27 := x2.trans x37
  have aw : Away c { dd with vector_translation := dv } := ⟨w6.1, Points.ne (x05.holds hc).1 ndv⟩
  refine Run.pure ⟨T6, (x1.trans x27).cast rfl, v6,
    ⟨⟨fun j => if j = 0 then f0 else if j = 1 then f1 else f2, f5, { f6 with Vec := f6.Vec ^^^ ((R (i + 4)).p 0).Vec }⟩,
      ⟨?_, ?_, ?_⟩, ⟨?_, ?_, ?_, ?_⟩⟩, ?_⟩
  · intro j hj
    show Afar s7 T6 c (M3[i]!)[j]! _
    rw [gM3 i j hi (by omega), gM2 i j hi (by omega), gM1 i j hi (by omega)]
    obtain rfl | rfl | rfl : j = 0 ∨ j = 1 ∨ j = 2 := by omega
    · rw [if_neg (by omega), if_neg (by omega), if_pos (by omega)]
      exact ⟨x27.a32 a0, w0⟩
    · rw [if_neg (by omega), if_pos (by omega)]
      exact ⟨x37.a32 a1, w1⟩
    · rw [if_pos (by omega)]
      exact ⟨x47.a32 a2, w2⟩
  · show Afar s7 T6 c C1[i]! _
    rw [gC1 i hi, if_pos rfl]
    exact ⟨x7.a32 a5, w5⟩
  · show Afar s7 T6 c D1[i]! _
    rw [gD1 i hi, if_pos rfl]
    refine ⟨⟨⟨hdl, a6.lin.2⟩, ?_⟩, aw⟩
    rw [add_comm, colVec_add] at pv
    exact ⟨pv, tdv⟩
  · intro j hj x
    obtain rfl | rfl | rfl : j = 0 ∨ j = 1 ∨ j = 2 := by omega
    · exact q0 x
    · exact q1 x
    · exact q2 x
  · intro d k hd hk
    show ((Tab[i]!)[d]!)[k]! = _
    rw [hT i d k hi hd hk, if_pos rfl]
  · exact q5
  · intro x
    show ap32 { f6 with Vec := f6.Vec ^^^ ((R (i + 4)).p 0).Vec } x = _
    rw [ap32_addVec, q6]
  · intro x hx hne
    constructor
    · intro k hk
      show (M3[x]!)[k]! = _
      rw [gM3 x k hx hk, gM2 x k hx hk, gM1 x k hx hk, if_neg (by omega), if_neg (by omega), if_neg (by omega)]
    · show C1[x]! = _
      rw [gC1 x hx, if_neg hne]
    · show D1[x]! = _
      rw [gD1 x hx, if_neg hne]
    · intro d k hd hk
      show ((Tab[x]!)[d]!)[k]! = _
      rw [hT x d k hx hd hk, if_neg hne]

theorem copyAffine_run (ho : Own s T) {a : AffineTransform} {f : Aff32} (ha : A32 s T a f) {c n m : Nat}
    {A : Matrix (Fin n) (Fin m) (ZMod 2)} (hc : Holds s T c A) :
    Run (copyAffine a) s fun r s' => Ext 2 s T s' T ∧ Afar s' T c r f := by
  rw [copyAffine]
  refine Run.bind ((copy_new ho.ok ha.lin.1).run ho) ?_
  rintro l s1 ⟨x1, hl, nl⟩
  refine Run.bind ((copy_new x1.own.ok (x1.a32 ha).vec.1).run x1.own) ?_
  rintro v s2 ⟨x2, hv, nv⟩
  exact Run.pure ⟨x1.trans x2, ⟨x2.holds hl, hv⟩, Points.ne hc.1 nl, Points.ne (x1.holds hc).1 nv⟩

/-- What the tables look like after `sm4_wb_combine_tables`. -/
structure CtxRel (s : Heap) (T : Finset Nat) (c : Nat) (R : Nat → Row) (sk : Vector (Vector (Vector (BitVec 8) 256) 4) 32)
    (ctx : Sm4Whitebox) (Rd : Nat → Round) : Prop where
  round : ∀ i, i < 32 → RoundRel s T c ctx i (Rd i) ∧ RoundEq R sk ctx.Table i (Rd i)
  SE : ∀ j, j < 4 → Afar s T c ctx.SE[j]! ((R j).p 0)
  FE : ∀ j, j < 4 → Afar s T c ctx.FE[j]! ((R (32 + j)).p 1)

theorem RoundRel.ext {c : Nat} {ctx : Sm4Whitebox} {i : Nat} {Rd : Round} (h : RoundRel s T c ctx i Rd)
    (x : Ext k s T s' T') : RoundRel s' T' c ctx i Rd :=
  ⟨fun j hj => (h.M j hj).ext x, h.C.ext x, h.D.ext x⟩

theorem combine_run (hl : lib.Ok) (ho : Own s ∅) {g : Globals} {R : Nat → Row}
    (hR : ∀ x, x < 36 → RowRel s ∅ g x (R x)) {c : Nat} (hc : Holds s ∅ c (mat32 csl)) (ctx : Sm4Whitebox) :
    Run (sm4_wb_combine_tables lib g ctx c) s fun ctx' s' => Ext 336 s ∅ s' ∅ ∧
      ∃ Rd, CtxRel s' ∅ c R g.skbox_enc ctx' Rd := by
  rw [sm4_wb_combine_tables]
  refine Run.bind (P := fun r s' => ∃ T', Ext 320 s ∅ s' T' ∧ Loc T' r.2 ∧ ∃ Rd : Nat → Round,
    ∀ i, i < 32 → RoundRel s' T' c r.1 i (Rd i) ∧ RoundEq R g.skbox_enc r.1.Table i (Rd i)) ?_ ?_
  · refine Run.forUp (fun t r s' => ∃ T', Ext (10 * t) s ∅ s' T' ∧ Loc T' r.2 ∧ ∃ Rd : Nat → Round,
      ∀ i, i < t → RoundRel s' T' c r.1 i (Rd i) ∧ RoundEq R g.skbox_enc r.1.Table i (Rd i)) (by omega)
      ⟨∅, Ext.refl ho, Loc.zero, fun _ => ⟨fun _ => default, default, default⟩, fun i h => by omega⟩ ?_ (fun _ _ h => h)
    rintro i ⟨ctx1, v1⟩ s1 - hi ⟨T1, x1, l1, Rd, h1⟩
    refine (combineRound_run hl x1.own l1 hi (fun x hx => Ext.row x1 (hR x hx)) (x1.holds hc) ctx1).mono ?_
    rintro ⟨ctx2, v2⟩ s2 ⟨T2, x2, l2, ⟨Rd', h2, h3⟩, hsame⟩
    refine ⟨T2, x1.trans x2, l2, fun x => if x = i then Rd' else Rd x, ?_⟩
    intro x hx
    show RoundRel s2 T2 c ctx2 x (if x = i then Rd' else Rd x) ∧
      RoundEq R g.skbox_enc ctx2.Table x (if x = i then Rd' else Rd x)
    by_cases e : x = i
    · subst e; rw [if_pos rfl]; exact ⟨h2, h3⟩
    · rw [if_neg e]
      obtain ⟨h4, h5⟩ := h1 x (by omega)
      have hs := hsame x (by omega) e
      exact ⟨h4.congr hs x2, h5.congr hs⟩
  rintro ⟨ctx1, v⟩ s1 ⟨T1, x1, l1, Rd, h1⟩
  simp only at l1 h1
  refine Run.bind (P := fun ctx' s' => Ext 16 s1 T1 s' T1 ∧ CtxRel s' T1 c R g.skbox_enc ctx' Rd) ?_ ?_
  · refine Run.forUp (fun t (ctx' : Sm4Whitebox) s' => Ext (4 * t) s1 T1 s' T1 ∧
      (∀ i, i < 32 → RoundRel s' T1 c ctx' i (Rd i) ∧ RoundEq R g.skbox_enc ctx'.Table i (Rd i)) ∧
      ∀ j, j < t → Afar s' T1 c ctx'.SE[j]! ((R j).p 0) ∧ Afar s' T1 c ctx'.FE[j]! ((R (32 + j)).p 1)) (by omega)
      ⟨Ext.refl x1.own, h1, fun j h => by omega⟩ ?_
      (fun ctx' s' h => ⟨h.1, h.2.1, fun j hj => (h.2.2 j hj).1, fun j hj => (h.2.2 j hj).2⟩)
    rintro j ctx2 s2 - hj ⟨x2, h2, hse⟩
    have x02 := x1.trans x2
    refine Run.step (liftC_run s2 (rd2_get g.P (show j < 36 by omega) (show 0 < 2 by omega))) ?_
    refine Run.bind (copyAffine_run x2.own ((Ext.row x02 (hR j (by omega))).P 0 (by omega)) (x02.holds hc)) ?_
    rintro se s3 ⟨x3, ase⟩
    obtain ⟨SE, hSE, gSE⟩ := wr_get ctx2.SE (i := j) hj se
    refine Run.step (liftC_run s3 hSE) ?_
    have x03 := x02.trans x3
    refine Run.step (liftC_run s3 (rd2_get g.P (show 32 + j < 36 by omega) (show 1 < 2 by omega))) ?_
    refine Run.bind (copyAffine_run x3.own ((Ext.row x03 (hR (32 + j) (by omega))).P 1 (by omega)) (x03.holds hc)) ?_
    rintro fe s4 ⟨x4, afe⟩
    obtain ⟨FE, hFE, gFE⟩ := wr_get ctx2.FE (i := j) hj fe
    refine Run.step (liftC_run s4 hFE) ?_
    have x24 := x3.trans x4
    refine Run.pure ⟨(x2.trans x24).cast (by omega), ?_, ?_⟩
    · intro i hi
      obtain ⟨h3, h4⟩ := h2 i hi
      have h5 := h3.ext x24
      exact ⟨⟨h5.M, h5.C, h5.D⟩, h4⟩
    · intro i hi
      show Afar s4 T1 c SE[i]! _ ∧ Afar s4 T1 c FE[i]! _
      rw [gSE i (by omega), gFE i (by omega)]
      by_cases e : i = j
      · subst e
        rw [if_pos rfl, if_pos rfl]
        exact ⟨ase.ext x4, afe⟩
      · rw [if_neg e, if_neg e]
        obtain ⟨h3, h4⟩ := hse i (by omega)
        exact ⟨h3.ext x24, h4.ext x24⟩
  rintro ctx2 s2 ⟨x2, hctx⟩
  refine Run.step (free_any x2.own.ok (x2.own.canFree l1.temp_mem)) ?_
  have x3 := Ext.free x2.own l1.temp_mem
  refine Run.step (free_any x3.own.ok (x3.own.canFree l1.kv_erase)) ?_
  have x4 := Ext.free x3.own l1.kv_erase
  refine Run.step (free_any x4.own.ok (x4.own.canFree l1.dest_erase)) ?_
  have x5 := Ext.free x4.own l1.dest_erase
  rw [l1.clear] at x5
  have x25 := x3.trans (x4.trans x5)
  exact Run.pure ⟨(x1.trans (x2.trans x25)).cast rfl, Rd,
    ⟨fun i hi => ⟨(hctx.round i hi).1.ext x25, (hctx.round i hi).2⟩, fun j hj => (hctx.SE j hj).ext x25,
      fun j hj => (hctx.FE j hj).ext x25⟩⟩

/-! ## The whole generation -/

theorem gen_sbox_ok (env : Env) (ctx : sm4_context 64) (rk : Nat → BitVec 32) (hk : Keys ctx.sk rk)
    (sk : Vector (Vector (Vector (BitVec 8) 256) 4) 32) :
    ∃ sk', sm4_wb_gen_secrect_sbox env ctx sk = .ok sk' ∧ ∀ i d k, i < 32 → d < 4 → k < 256 →
      ((sk'[i]!)[d]!)[k]! = S (BitVec.ofNat 8 k ^^^ byte (rk i) d) := by
  let g : wbsm4.Globals := ⟨default, default, default, default, sk⟩
  obtain ⟨g', e, h⟩ := gen_secrect_sbox_ok env ctx rk hk g
  have e2 : wbsm4.sm4_wb_gen_secrect_sbox env ctx g =
      (sm4_wb_gen_secrect_sbox env ctx sk >>= fun sk' => pure { g with skbox_enc := sk' }) := by
    unfold sm4_wb_gen_secrect_sbox wbsm4.sm4_wb_gen_secrect_sbox
    rw [bind_assoc]
  rw [e2] at e
  cases e3 : sm4_wb_gen_secrect_sbox env ctx sk with
  | error x => rw [e3] at e; cases e
  | ok sk' =>
    rw [e3] at e
    have e4 : (Except.ok { g with skbox_enc := sk' } : WB.C wbsm4.Globals) = .ok g' := e
    cases e4
    exact ⟨sk', rfl, h⟩

theorem initMatrixL_run (hs : s.Ok) {p : Nat} {A : Matrix (Fin 32) (Fin 32) (ZMod 2)} (hp : Points s p A) :
    ∃ m, initMatrixL p s = .ok ((), setObj s p (some m)) ∧ Is m (mat32 csl) := by
  obtain ⟨m, hm, hA⟩ := hp
  obtain ⟨_, s', e, hw⟩ := bitArray_run (data := (sm4_csl_xor_matrix (W := 64)).toList) hs hm
    (by rw [hA.nrows, Vector.length_toList])
  obtain ⟨m', rfl, hm'⟩ := hw.is hA.nrows hA.ncols
  refine ⟨m', e, hm'.nrows, hm'.ncols, ?_⟩
  intro i j
  rw [hm'.bit i j]
  have hi := i.2
  have hj := j.2
  show bitF (((sm4_csl_xor_matrix (W := 64)).toList.getD i 0).getLsbD (m.ncols - 1 - j)) =
    bitF ((csl[i.val]).getLsbD (32 - 1 - j))
  rw [hA.ncols, List.getD_eq_getElem _ _ (by rw [Vector.length_toList]; exact hi), Vector.getElem_toList]
  congr 1
  simp only [csl_map, csl, Vector.getElem_map]
  rw [BitVec.getLsbD_ofNat, BitVec.getLsbD_ofNat]
  have h1 : decide (32 - 1 - j.val < 64) = true := by simp; omega
  have h2 : decide (32 - 1 - j.val < 32) = true := by simp; omega
  rw [h1, h2]

/-- The transforms of `ctx` denote the functions in `w`, and both have the same lookup tables. -/
structure Ctx (s : Heap) (ctx : Sm4Whitebox) (w : wbsm4.Sm4Whitebox) : Prop where
  M : ∀ i j, i < 32 → j < 3 → A32 s ∅ (ctx.M[i]!)[j]! (w.M[i]!)[j]!
  C : ∀ i, i < 32 → A32 s ∅ ctx.C[i]! w.C[i]!
  D : ∀ i, i < 32 → A32 s ∅ ctx.D[i]! w.D[i]!
  SE : ∀ i, i < 4 → A32 s ∅ ctx.SE[i]! w.SE[i]!
  FE : ∀ i, i < 4 → A32 s ∅ ctx.FE[i]! w.FE[i]!
  Table : w.Table = ctx.Table

theorem ofFn_get {α : Type} [Inhabited α] {n i : Nat} (f : Nat → α) (h : i < n) :
    (Vector.ofFn fun x : Fin n => f x)[i]! = f i := by
  rw [getElem!_pos _ i h, Vector.getElem_ofFn]

/-- The encodings as in the other demo. -/
def absGlobals (R : Nat → Row) (sk : Vector (Vector (Vector (BitVec 8) 256) 4) 32) : wbsm4.Globals where
  P := Vector.ofFn fun i => Vector.ofFn fun k => (R i).p k
  E := Vector.ofFn fun i => Vector.ofFn fun d => Vector.ofFn fun k => (R i).e d k
  EC := Vector.ofFn fun i => Vector.ofFn fun _ => (R i).ec
  Q := Vector.ofFn fun i => Vector.ofFn fun k => (R i).q k
  skbox_enc := sk

/-- The tables as in the other demo. -/
def absCtx (R : Nat → Row) (Rd : Nat → Round) (Tab : Vector (Vector (Vector (BitVec 32) 256) 4) 32) :
    wbsm4.Sm4Whitebox where
  M := Vector.ofFn fun i => Vector.ofFn fun j => (Rd i).m j
  C := Vector.ofFn fun i => (Rd i).c
  D := Vector.ofFn fun i => (Rd i).d
  SE := Vector.ofFn fun j => (R j).p 0
  FE := Vector.ofFn fun j => (R (32 + j)).p 1
  Table := Tab

section
variable (R : Nat → Row) (Rd : Nat → Round) (sk : Vector (Vector (Vector (BitVec 8) 256) 4) 32)
  (Tab : Vector (Vector (Vector (BitVec 32) 256) 4) 32)

theorem abs_P {i k : Nat} (hi : i < 36) (hk : k < 2) : ((absGlobals R sk).P[i]!)[k]! = (R i).p k := by
  show ((Vector.ofFn fun i : Fin 36 => Vector.ofFn fun k : Fin 2 => (R i).p k)[i]!)[k]! = _
  rw [ofFn_get (fun i => Vector.ofFn fun k : Fin 2 => (R i).p k) hi, ofFn_get _ hk]

theorem abs_E {i d k : Nat} (hi : i < 36) (hd : d < 4) (hk : k < 2) :
    (((absGlobals R sk).E[i]!)[d]!)[k]! = (R i).e d k := by
  show (((Vector.ofFn fun i : Fin 36 => Vector.ofFn fun d : Fin 4 => Vector.ofFn fun k : Fin 2 => (R i).e d k)[i]!)[d]!)[k]! = _
  rw [ofFn_get (fun i => Vector.ofFn fun d : Fin 4 => Vector.ofFn fun k : Fin 2 => (R i).e d k) hi,
    ofFn_get (fun d => Vector.ofFn fun k : Fin 2 => (R i).e d k) hd, ofFn_get _ hk]

theorem abs_EC {i k : Nat} (hi : i < 36) (hk : k < 2) : ((absGlobals R sk).EC[i]!)[k]! = (R i).ec := by
  show ((Vector.ofFn fun i : Fin 36 => Vector.ofFn fun _ : Fin 2 => (R i).ec)[i]!)[k]! = _
  rw [ofFn_get (fun i => Vector.ofFn fun _ : Fin 2 => (R i).ec) hi, ofFn_get (fun _ => (R i).ec) hk]

theorem abs_Q {i k : Nat} (hi : i < 36) (hk : k < 2) : ((absGlobals R sk).Q[i]!)[k]! = (R i).q k := by
  show ((Vector.ofFn fun i : Fin 36 => Vector.ofFn fun k : Fin 2 => (R i).q k)[i]!)[k]! = _
  rw [ofFn_get (fun i => Vector.ofFn fun k : Fin 2 => (R i).q k) hi, ofFn_get _ hk]

theorem abs_M {i k : Nat} (hi : i < 32) (hk : k < 3) : ((absCtx R Rd Tab).M[i]!)[k]! = (Rd i).m k := by
  show ((Vector.ofFn fun i : Fin 32 => Vector.ofFn fun k : Fin 3 => (Rd i).m k)[i]!)[k]! = _
  rw [ofFn_get (fun i => Vector.ofFn fun k : Fin 3 => (Rd i).m k) hi, ofFn_get _ hk]

theorem abs_C {i : Nat} (hi : i < 32) : (absCtx R Rd Tab).C[i]! = (Rd i).c := ofFn_get (fun i => (Rd i).c) hi
theorem abs_D {i : Nat} (hi : i < 32) : (absCtx R Rd Tab).D[i]! = (Rd i).d := ofFn_get (fun i => (Rd i).d) hi
theorem abs_SE {i : Nat} (hi : i < 4) : (absCtx R Rd Tab).SE[i]! = (R i).p 0 := ofFn_get (fun i => (R i).p 0) hi
theorem abs_FE {i : Nat} (hi : i < 4) : (absCtx R Rd Tab).FE[i]! = (R (32 + i)).p 1 :=
  ofFn_get (fun i => (R (32 + i)).p 1) hi
end

theorem abs_ok {R : Nat → Row} {Rd : Nat → Round} {sk : Vector (Vector (Vector (BitVec 8) 256) 4) 32}
    {Tab : Vector (Vector (Vector (BitVec 32) 256) 4) 32} {rk : Nat → BitVec 32}
    (hR : ∀ i, i < 36 → wbsm4.RowOk (R i).p (R i).e (R i).ec (R i).q)
    (hsk : ∀ i d k, i < 32 → d < 4 → k < 256 → ((sk[i]!)[d]!)[k]! = S (BitVec.ofNat 8 k ^^^ byte (rk i) d))
    (hRd : ∀ i, i < 32 → RoundEq R sk Tab i (Rd i)) : TablesOk rk (absGlobals R sk) (absCtx R Rd Tab) where
  row i hi := by
    have h := hR i hi
    refine ⟨?_, ?_, ?_, ?_⟩
    · simp only [abs_P R sk hi (show 0 < 2 by omega), abs_P R sk hi (show 1 < 2 by omega)]; exact h.P
    · intro d hd
      simp only [abs_E R sk hi hd (show 0 < 2 by omega), abs_E R sk hi hd (show 1 < 2 by omega)]; exact h.E d hd
    · intro x d hd
      simp only [abs_E R sk hi hd (show 1 < 2 by omega), abs_EC R sk hi (show 1 < 2 by omega)]; exact h.EC x d hd
    · simp only [abs_Q R sk hi (show 0 < 2 by omega), abs_Q R sk hi (show 1 < 2 by omega)]; exact h.Q
  sk := hsk
  round i hi := by
    have h := hRd i hi
    constructor
    · intro j hj x
      rw [abs_M R Rd Tab hi hj, abs_EC R sk (by omega) (by omega), abs_P R sk (by omega) (by omega)]
      exact h.M j hj x
    · intro d k hd hk
      rw [abs_E R sk (by omega) hd (by omega), abs_Q R sk (by omega) (by omega)]
      exact h.T d k hd hk
    · intro x
      rw [abs_C R Rd Tab hi, abs_P R sk (by omega) (by omega), abs_P R sk (by omega) (by omega)]
      exact h.C x
    · intro x
      rw [abs_D R Rd Tab hi, abs_P R sk (by omega) (by omega), abs_Q R sk (by omega) (by omega)]
      exact h.D x
  ends j hj := by
    rw [abs_SE R Rd Tab hj, abs_FE R Rd Tab hj, abs_P R sk (by omega) (by omega), abs_P R sk (by omega) (by omega)]
    exact ⟨rfl, rfl⟩

theorem Afar.drop {c : Nat} {a : AffineTransform} {f : Aff32} (h : Afar s T c a f) : A32 (setObj s c none) T a f :=
  ⟨h.aff.lin.setObj h.away.1, h.aff.vec.setObj h.away.2⟩

theorem gen_tables_run (hl : lib.Ok) (fuel : Nat) (ho : Own s ∅) (env : Env) (key : Vector (BitVec 8) 16) (g : Globals)
    (ctx : Sm4Whitebox) :
    RunD (¬ Lucky2 lib fuel) (sm4_wb_gen_tables lib fuel env key g ctx) s fun r s' => Ext 1344 s ∅ s' ∅ ∧
      ∃ wg w, TablesOk (roundKey (load (bytes key) 0)) wg w ∧ Ctx s' r.2 w := by
  rw [sm4_wb_gen_tables]
  obtain ⟨kc, ek, -, hk⟩ := sm4_setkey_enc_ok (W := 64) (by omega) env key (junkCtx env 64)
  refine RunD.step (liftC_run s ek) ?_
  obtain ⟨sk, es, hsk⟩ := gen_sbox_ok env kc _ hk g.skbox_enc
  refine RunD.step (liftC_run s es) ?_
  refine RunD.bind (gen_affine_run hl fuel ho { g with skbox_enc := sk }) ?_
  rintro g1 s1 ⟨x1, ⟨R, hR⟩, hg1⟩
  have hg1' : g1.skbox_enc = sk := hg1
  refine RunD.bind (.inr ((zero_new s1 32 32).more x1.own.ok (Ext.refl x1.own))) ?_
  rintro c s2 ⟨x2, pc, nc, tc, -, -⟩
  obtain ⟨m, em, hm⟩ := initMatrixL_run x2.own.ok pc
  obtain ⟨m2, hm2, -⟩ := pc
  refine RunD.step em ?_
  have x3 := x2.change nc hm2 tc m
  have hc : Holds (setObj s2 c (some m)) ∅ c (mat32 csl) := ⟨⟨m, setObj_self _ _ _, hm⟩, tc⟩
  refine RunD.bind (.inr (combine_run hl x3.own (fun x hx => Ext.row x3 (hR x hx)) hc ctx)) ?_
  rintro ctx' s4 ⟨x4, Rd, hctx⟩
  have x14 : Ext (336 + 1) s1 ∅ s4 ∅ := (x3.trans x4).cast rfl
  refine .inr (drop_run (k := 336) x14 nc (x4.holds hc) fun x5 => Run.pure ⟨x1.trans x5, absGlobals R sk,
    absCtx R Rd ctx'.Table, abs_ok (fun i hi => (hR i hi).ok) hsk (fun i hi => ?_), ?_⟩)
  · rw [← hg1']; exact (hctx.round i hi).2
  · constructor
    · intro i j hi hj
      rw [abs_M R Rd _ hi hj]
      exact ((hctx.round i hi).1.M j hj).drop
    · intro i hi
      rw [abs_C R Rd _ hi]
      exact (hctx.round i hi).1.C.drop
    · intro i hi
      rw [abs_D R Rd _ hi]
      exact (hctx.round i hi).1.D.drop
    · intro i hi
      rw [abs_SE R Rd _ hi]
      exact (hctx.SE i hi).drop
    · intro i hi
      rw [abs_FE R Rd _ hi]
      exact (hctx.FE i hi).drop
    · rfl

/-! ## Encryption -/

/-- `x` does what `y` does, and uses up `n` addresses. -/
def Sim {α : Type} (s : Heap) (n : Nat) (x : MM α) (y : WB.C α) : Prop :=
  ∀ j a, y = .ok a → x { s with next := s.next + j } = .ok (a, { s with next := s.next + (j + n) })

namespace Sim
variable {α β γ : Type}

theorem pure (a : α) : Sim s 0 (Pure.pure a : MM α) (Pure.pure a) := by
  intro j b e
  cases e
  rfl

theorem lift (y : WB.C α) : Sim s 0 (liftC y) y := by
  intro j b e
  exact liftC_run _ e

theorem bind {n m : Nat} {x : MM α} {y : WB.C α} {f : α → MM β} {h : α → WB.C β} (hx : Sim s n x y)
    (hf : ∀ a, Sim s m (f a) (h a)) : Sim s (n + m) (x >>= f) (y >>= h) := by
  intro j b e
  cases ey : y with
  | error z => rw [ey] at e; cases e
  | ok a =>
    rw [ey] at e
    have e2 : h a = .ok b := e
    rw [MM_bind (hx j a ey), hf a (j + n) b e2, Nat.add_assoc]

theorem read {n : Nat} {x : WB.C α} {y : WB.C γ} {a : α} {c : γ} {f : α → MM β} {h : γ → WB.C β} (ex : x = .ok a)
    (ey : y = .ok c) (hf : Sim s n (f a) (h c)) : Sim s n (liftC x >>= f) (y >>= h) := by
  intro j b e
  rw [ey] at e
  have e2 : h c = .ok b := e
  rw [MM_bind (liftC_run _ ex)]
  exact hf j b e2

theorem foldlM {σ : Type} {n : Nat} {f : Nat → σ → MM σ} {h : Nat → σ → WB.C σ} :
    ∀ (len lo : Nat) (x : σ), (∀ i x, lo ≤ i → i < lo + len → Sim s n (f i x) (h i x)) →
    Sim s (n * len) ((List.range' lo len).foldlM (fun x i => f i x) x) ((List.range' lo len).foldlM (fun x i => h i x) x) := by
  intro len
  induction len with
  | zero => intro lo x _; exact Sim.pure x
  | succ len ih =>
    intro lo x hs
    simp only [List.range'_succ, List.foldlM_cons]
    have := bind (hs lo x (Nat.le_refl _) (by omega)) (fun a => ih (lo + 1) a (fun i x h1 h2 => hs i x (by omega) (by omega)))
    rwa [show n + n * len = n * (len + 1) by rw [Nat.mul_add, Nat.mul_one, Nat.add_comm]] at this

theorem forUp {σ : Type} {n hi : Nat} {f : Nat → σ → MM σ} {h : Nat → σ → WB.C σ} (x : σ)
    (hs : ∀ i x, i < hi → Sim s n (f i x) (h i x)) : Sim s (n * hi) (WB.forUp 0 hi x f) (WB.forUp 0 hi x h) :=
  foldlM hi 0 x (fun i x _ h2 => hs i x (by omega))

end Sim

theorem apply32 (hl : lib.Ok) (hs : s.Ok) {a : AffineTransform} {f : Aff32} (ha : A32 s ∅ a f) (x : BitVec 32) :
    ApplyAffineToU32 lib a x s = .ok (ap32 f x, { s with next := s.next + 3 }) := by
  obtain ⟨y, e, -, h⟩ := C70_ApplyAffineToU32 hl hs ha.lin.1 ha.vec.1 x
  have := h ⟨.little, fun _ => 0⟩ f rfl (fun i => rfl)
  rw [affineU32_eq] at this
  cases this
  exact e

theorem Sim.apply {wl : Lib} (hw : LibOk wl) (hl : lib.Ok) (hs : s.Ok) {a : AffineTransform} {f : Aff32} (ha : A32 s ∅ a f)
    (x : BitVec 32) : Sim s 3 (ApplyAffineToU32 lib a x) (wl.affineU32 f x) := by
  intro j b e
  rw [hw.u32] at e
  cases e
  have ha' : A32 { s with next := s.next + j } ∅ a f := ⟨⟨ha.lin.1, ha.lin.2⟩, ⟨ha.vec.1, ha.vec.2⟩⟩
  exact apply32 hl (hs.skip j) ha' x

theorem sim_round {wl : Lib} (hw : LibOk wl) (hl : lib.Ok) (hs : s.Ok) {ctx : Sm4Whitebox} {w : wbsm4.Sm4Whitebox}
    (hc : Ctx s ctx w) {i : Nat} (hi : i < 32) (x0 x1 x2 x3 : BitVec 32) :
    Sim s 15 (sm4round lib ctx i x0 x1 x2 x3) (wbsm4.sm4round wl w i x0 x1 x2 x3) := by
  unfold sm4round wbsm4.sm4round
  refine Sim.read (rd2_get ctx.M hi (show 0 < 3 by omega)) (rd2_get w.M hi (show 0 < 3 by omega)) ?_
  refine Sim.bind (n := 3) (m := 12) (Sim.apply hw hl hs (hc.M i 0 hi (by omega)) x1) fun y1 => ?_
  refine Sim.read (rd2_get ctx.M hi (show 1 < 3 by omega)) (rd2_get w.M hi (show 1 < 3 by omega)) ?_
  refine Sim.bind (n := 3) (m := 9) (Sim.apply hw hl hs (hc.M i 1 hi (by omega)) x2) fun y2 => ?_
  refine Sim.read (rd2_get ctx.M hi (show 2 < 3 by omega)) (rd2_get w.M hi (show 2 < 3 by omega)) ?_
  refine Sim.bind (n := 3) (m := 6) (Sim.apply hw hl hs (hc.M i 2 hi (by omega)) x3) fun y3 => ?_
  rw [hc.Table]
  refine Sim.bind (n := 0) (m := 6) (Sim.lift _) fun x4 => ?_
  refine Sim.read (rd_get ctx.C hi) (rd_get w.C hi) ?_
  refine Sim.bind (n := 3) (m := 3) (Sim.apply hw hl hs (hc.C i hi) x0) fun y0 => ?_
  refine Sim.read (rd_get ctx.D hi) (rd_get w.D hi) ?_
  refine Sim.bind (n := 3) (m := 0) (Sim.apply hw hl hs (hc.D i hi) x4) fun y4 => ?_
  exact Sim.pure _

theorem sim_enc {wl : Lib} (hw : LibOk wl) (hl : lib.Ok) (hs : s.Ok) {ctx : Sm4Whitebox} {w : wbsm4.Sm4Whitebox}
    (hc : Ctx s ctx w) (IN OUT : Vector (BitVec 8) 16) :
    Sim s 504 (sm4_wb_enc lib IN OUT ctx) (wbsm4.sm4_wb_enc wl IN OUT w) := by
  unfold sm4_wb_enc wbsm4.sm4_wb_enc
  refine Sim.bind (n := 0) (m := 504) (Sim.lift _) fun x0 => ?_
  refine Sim.bind (n := 0) (m := 504) (Sim.lift _) fun x1 => ?_
  refine Sim.bind (n := 0) (m := 504) (Sim.lift _) fun x2 => ?_
  refine Sim.bind (n := 0) (m := 504) (Sim.lift _) fun x3 => ?_
  refine Sim.read (rd_get ctx.SE (show 0 < 4 by omega)) (rd_get w.SE (show 0 < 4 by omega)) ?_
  refine Sim.bind (n := 3) (m := 501) (Sim.apply hw hl hs (hc.SE 0 (by omega)) x0) fun x0 => ?_
  refine Sim.read (rd_get ctx.SE (show 1 < 4 by omega)) (rd_get w.SE (show 1 < 4 by omega)) ?_
  refine Sim.bind (n := 3) (m := 498) (Sim.apply hw hl hs (hc.SE 1 (by omega)) x1) fun x1 => ?_
  refine Sim.read (rd_get ctx.SE (show 2 < 4 by omega)) (rd_get w.SE (show 2 < 4 by omega)) ?_
  refine Sim.bind (n := 3) (m := 495) (Sim.apply hw hl hs (hc.SE 2 (by omega)) x2) fun x2 => ?_
  refine Sim.read (rd_get ctx.SE (show 3 < 4 by omega)) (rd_get w.SE (show 3 < 4 by omega)) ?_
  refine Sim.bind (n := 3) (m := 492) (Sim.apply hw hl hs (hc.SE 3 (by omega)) x3) fun x3 => ?_
  refine Sim.bind (n := 480) (m := 12) (Sim.forUp (n := 15) (hi := 32) _ fun i x hi => ?_) fun r => ?_
  · obtain ⟨x0, x1, x2, x3⟩ := x
    exact Sim.bind (n := 15) (m := 0) (sim_round hw hl hs hc hi x0 x1 x2 x3) fun x4 => Sim.pure _
  obtain ⟨x0, x1, x2, x3⟩ := r
  refine Sim.read (rd_get ctx.FE (show 3 < 4 by omega)) (rd_get w.FE (show 3 < 4 by omega)) ?_
  refine Sim.bind (n := 3) (m := 9) (Sim.apply hw hl hs (hc.FE 3 (by omega)) _) fun y0 => ?_
  refine Sim.read (rd_get ctx.FE (show 2 < 4 by omega)) (rd_get w.FE (show 2 < 4 by omega)) ?_
  refine Sim.bind (n := 3) (m := 6) (Sim.apply hw hl hs (hc.FE 2 (by omega)) _) fun y1 => ?_
  refine Sim.read (rd_get ctx.FE (show 1 < 4 by omega)) (rd_get w.FE (show 1 < 4 by omega)) ?_
  refine Sim.bind (n := 3) (m := 3) (Sim.apply hw hl hs (hc.FE 1 (by omega)) _) fun y2 => ?_
  refine Sim.read (rd_get ctx.FE (show 0 < 4 by omega)) (rd_get w.FE (show 0 < 4 by omega)) ?_
  refine Sim.bind (n := 3) (m := 0) (Sim.apply hw hl hs (hc.FE 0 (by omega)) _) fun y3 => ?_
  refine Sim.bind (n := 0) (m := 0) (Sim.lift _) fun o1 => ?_
  refine Sim.bind (n := 0) (m := 0) (Sim.lift _) fun o2 => ?_
  refine Sim.bind (n := 0) (m := 0) (Sim.lift _) fun o3 => ?_
  exact Sim.lift _

theorem enc_run (hl : lib.Ok) (hs : s.Ok) {ctx : Sm4Whitebox} {wg : wbsm4.Globals} {w : wbsm4.Sm4Whitebox}
    {rk : Nat → BitVec 32} (ht : TablesOk rk wg w) (hc : Ctx s ctx w) (IN OUT : Vector (BitVec 8) 16) :
    ∃ o, sm4_wb_enc lib IN OUT ctx s = .ok (o, { s with next := s.next + 504 }) ∧
      load (bytes o) 0 = crypt rk (load (bytes IN) 0) := by
  have hw := libOk_current ⟨.little, fun _ => 0⟩ rfl
  obtain ⟨o, e, h⟩ := enc_ok hw ht IN OUT
  refine ⟨o, ?_, h⟩
  have := sim_enc hw hl hs hc IN OUT 0 o e
  rw [Nat.zero_add] at this
  exact this

theorem _root_.WB.m4ri.Ext.ctx {k : Nat} (h : Ext k s ∅ s' ∅) {ctx : Sm4Whitebox} {w : wbsm4.Sm4Whitebox} (hc : Ctx s ctx w) :
    Ctx s' ctx w :=
  ⟨fun i j hi hj => h.a32 (hc.M i j hi hj), fun i hi => h.a32 (hc.C i hi), fun i hi => h.a32 (hc.D i hi),
    fun i hi => h.a32 (hc.SE i hi), fun i hi => h.a32 (hc.FE i hi), hc.Table⟩

/-- The block and the key of `main`. -/
def mainIN : Vector (BitVec 8) 16 := Vector.ofFn fun i => BitVec.ofNat 8 i

def mainKey : Vector (BitVec 8) 16 := Vector.replicate 16 0#8

theorem main_run (hl : lib.Ok) (fuel : Nat) (ho : Own s ∅) (env : Env) (n : Nat) (g : Globals) (ctx : Sm4Whitebox)
    (OUT : Vector (BitVec 8) 16) : RunD (¬ Lucky2 lib fuel) (main lib fuel env n g ctx OUT) s fun r s' =>
      Ext (1344 * n) s ∅ s' ∅ ∧
      (0 < n → load (bytes r.2.2) 0 = crypt (roundKey (load (bytes mainKey) 0)) (load (bytes mainIN) 0)) := by
  unfold main
  refine RunD.bind (RunD.forUp (fun t (x : Globals × Sm4Whitebox) s' => Ext (1344 * t) s ∅ s' ∅ ∧
    (0 < t → ∃ wg w, TablesOk (roundKey (load (bytes mainKey) 0)) wg w ∧ Ctx s' x.2 w)) (Nat.zero_le n) ⟨Ext.refl ho, fun h => absurd h (by omega)⟩ ?_
    (fun _ _ h => h)) ?_
  · rintro t ⟨g, ctx⟩ s1 - - ⟨x1, -⟩
    refine (gen_tables_run hl fuel x1.own env mainKey g ctx).mono ?_
    rintro ⟨g', ctx'⟩ s2 ⟨x2, h2⟩
    exact ⟨(x1.trans x2).cast (by omega), fun _ => h2⟩
  · rintro ⟨g', ctx'⟩ s1 ⟨x1, h1⟩
    refine RunD.bind (P := fun o s' => Ext (1344 * n) s ∅ s' ∅ ∧
      (0 < n → load (bytes o) 0 = crypt (roundKey (load (bytes mainKey) 0)) (load (bytes mainIN) 0))) ?_ ?_
    · rcases Nat.eq_zero_or_pos n with rfl | hn
      · exact RunD.of_run (Run.forUp (fun _ _ s' => s' = s1) (Nat.zero_le 0) rfl (fun i _ _ _ h => absurd h (by omega))
          (fun _ s' e => by subst e; exact ⟨x1, fun h => absurd h (by omega)⟩))
      · obtain ⟨wg, w, ht, hc⟩ := h1 hn
        refine RunD.of_run (Run.forUp (fun t o s' => (∃ k, s' = { s1 with next := s1.next + k }) ∧
          (0 < t → load (bytes o) 0 = crypt (roundKey (load (bytes mainKey) 0)) (load (bytes mainIN) 0)))
          (Nat.zero_le n) ⟨⟨0, rfl⟩, fun h => absurd h (by omega)⟩ ?_ ?_)
        · rintro t o s2 - - ⟨⟨k, rfl⟩, -⟩
          have hc2 : Ctx { s1 with next := s1.next + k } ctx' w := (Ext.skip x1.own k).ctx hc
          obtain ⟨o', e, h⟩ := enc_run hl (x1.own.ok.skip k) ht hc2 mainIN o
          exact ⟨o', _, e, ⟨k + 504, by simp only [Nat.add_assoc]⟩, fun _ => h⟩
        · rintro o s2 ⟨⟨k, rfl⟩, h⟩
          exact ⟨(x1.trans (Ext.skip x1.own k)).cast rfl, fun _ => h hn⟩
    · rintro o s2 ⟨x2, h2⟩
      exact RunD.of_run (Run.pure ⟨x2, h2⟩)

end WB.m4ri.sm4
