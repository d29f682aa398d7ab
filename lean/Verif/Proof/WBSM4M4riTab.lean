import Verif.Proof.WBSM4M4riGen

/-!
# The tables of the M4RI based SM4 demo (helper lemmas)
-/
namespace WB.m4ri.sm4
open WB.sm4 WB.wbsm4 SM4

variable {lib : M4ri} {s s' s'' : Heap} {T T' : Finset Nat} {k : Nat}

attribute [local irreducible] S L tau lin ap32 ap8

/-! ## Parts of the matrix of the linear layer -/

/-- Columns `8 d` to `8 d + 7`. -/
def slice (d : Nat) (hd : d < 4) (A : Matrix (Fin 32) (Fin 32) (ZMod 2)) : Matrix (Fin 32) (Fin 8) (ZMod 2) :=
  fun i j => A i ⟨d * 8 + j, by omega⟩

theorem slice_mul (d : Nat) (hd : d < 4) (A : Matrix (Fin 32) (Fin 32) (ZMod 2)) (b : BitVec 8) :
    slice d hd A * colVec 8 b = A * colVec 32 (placed d b) := by
  funext i j
  rw [Matrix.mul_apply, Matrix.mul_apply]
  have hbit : ∀ r : Fin 32, colVec 32 (placed d b) r j =
      if h : r.val / 8 = d then colVec 8 b ⟨r.val % 8, by omega⟩ j else 0 := by
    intro r
    have hr := r.2
    show bitF ((placed d b).getLsbD (32 - 1 - r.val)) = _
    unfold placed
    rw [BitVec.getLsbD_shiftLeft, BitVec.getLsbD_setWidth]
    by_cases h : r.val / 8 = d
    · rw [dif_pos h]
      show _ = bitF (b.getLsbD (8 - 1 - r.val % 8))
      rw [show 32 - 1 - r.val - (24 - 8 * d) = 8 - 1 - r.val % 8 by omega]
      have h1 : decide (32 - 1 - r.val < 32) = true := by simp; omega
      have h2 : decide (32 - 1 - r.val < 24 - 8 * d) = false := by simp; omega
      have h3 : decide (8 - 1 - r.val % 8 < 32) = true := by simp; omega
      rw [h1, h2, h3]; simp
    · rw [dif_neg h]
      by_cases h2 : 32 - 1 - r.val < 24 - 8 * d
      · simp [h2]
      · have : b.getLsbD (32 - 1 - r.val - (24 - 8 * d)) = false := BitVec.getLsbD_of_ge b _ (by omega)
        rw [this]; simp
  refine Finset.sum_of_injOn (fun r : Fin 8 => (⟨d * 8 + r, by omega⟩ : Fin 32)) ?_ ?_ ?_ ?_
  · intro a _ b _ h
    have := Fin.mk.inj_iff.1 h
    exact Fin.ext (by omega)
  · intro a _; simp
  · intro r _ hr
    rw [hbit r, dif_neg, mul_zero]
    intro h
    apply hr
    exact ⟨⟨r.val % 8, by omega⟩, by simp, Fin.ext (by simp only; omega)⟩
  · intro r _
    rw [hbit, dif_pos (by simp only; omega)]
    congr 2
    exact Fin.ext (by simp only; omega)

theorem sliceQL_new (hs : s.Ok) {p d : Nat} (hd : d < 4) {A : Matrix (Fin 32) (Fin 32) (ZMod 2)} (hp : Points s p A) :
    NewMat (sliceQL p d) s (slice d hd A) := by
  obtain ⟨m, hm, hA⟩ := hp
  have hlt := hs.lt hm
  have hq := push_self s ⟨32, 8, fun _ _ => false⟩
  have hok := hs.push ⟨32, 8, fun _ _ => false⟩
  have hw : Run (WB.forUp 0 32 () fun ii _ => WB.forUp 0 8 () fun jj _ => do
      MatGf2Set s.next ii jj (if ← MatGf2Get p ii (d * 8 + jj) then 1 else 0))
      (push s ⟨32, 8, fun _ _ => false⟩) fun _ s' => Wrote (push s ⟨32, 8, fun _ _ => false⟩) s.next ⟨32, 8, fun _ _ => false⟩
        (fun i j => m.bit i (d * 8 + j)) s' := by
    refine Run.forUp (fun i _ s' => Wrote (push s ⟨32, 8, fun _ _ => false⟩) s.next ⟨32, 8, fun _ _ => false⟩
        (fun r c => if r < i then m.bit r (d * 8 + c) else false) s') (Nat.zero_le _)
      ((Wrote.refl hq).congr (by intro r c _ _; rw [if_neg (by omega)])) ?_ ?_
    · intro i _ s' _ hi hw
      refine (writeRow (off := 0) hok hq hi (Nat.le_of_eq rfl) (fun j => if m.bit i (d * 8 + j) then 1 else 0) _ hw ?_).mono ?_
      · rintro j s2 hj ⟨g, hg⟩
        have hm' := hg.old (by omega) (push_old hs ⟨32, 8, fun _ _ => false⟩ hm)
        have hj' : j < 8 := by simpa using hj
        have := get_run (hg.ok hok hq) hm' (i := i) (j := d * 8 + j) (by rw [hA.nrows]; exact hi) (by rw [hA.ncols]; omega)
        rw [MM_bind this, Nat.zero_add]
      · intro _ s2 h2
        refine h2.congr ?_
        intro r c hr hc
        have hc' : c < 8 := hc
        by_cases e : r = i
        · rw [if_pos ⟨e, by omega, by simpa using hc⟩, setBit_bool, if_pos (by omega), e, Nat.sub_zero]
        · rw [if_neg (fun h => e h.1)]
          by_cases h : r < i
          · rw [if_pos h, if_pos (by omega)]
          · rw [if_neg h, if_neg (by omega)]
    · intro _ s' h
      refine h.congr ?_
      intro r c hr _
      exact if_pos hr
  have := newLoop (x := fun q => WB.forUp 0 32 () fun ii _ => WB.forUp 0 8 () fun jj _ => do
      MatGf2Set q ii jj (if ← MatGf2Get p ii (d * 8 + jj) then 1 else 0)) hs hw
  have e2 : bitMat 32 8 (fun i j => m.bit i (d * 8 + j)) = slice d hd A := by
    funext i j
    exact hA.bit i ⟨d * 8 + j, by omega⟩
  rw [e2] at this
  exact this

/-! ## The local variables -/

/-- The temporaries are `temp`, `kv` and `dest`, as far as they are not null. -/
structure Loc (T : Finset Nat) (v : Locals) : Prop where
  mem : ∀ q, q ∈ T ↔ q ≠ 0 ∧ (q = v.temp ∨ q = v.kv ∨ q = v.dest)
  tk : v.temp ≠ 0 → v.temp ≠ v.kv
  td : v.temp ≠ 0 → v.temp ≠ v.dest
  kd : v.kv ≠ 0 → v.kv ≠ v.dest

theorem Loc.temp_mem {v : Locals} (h : Loc T v) : v.temp = 0 ∨ v.temp ∈ T := by
  by_cases c : v.temp = 0
  · exact .inl c
  · exact .inr ((h.mem _).2 ⟨c, .inl rfl⟩)

theorem Loc.kv_mem {v : Locals} (h : Loc T v) : v.kv = 0 ∨ v.kv ∈ T := by
  by_cases c : v.kv = 0
  · exact .inl c
  · exact .inr ((h.mem _).2 ⟨c, .inr (.inl rfl)⟩)

theorem Loc.dest_mem {v : Locals} (h : Loc T v) : v.dest = 0 ∨ v.dest ∈ T := by
  by_cases c : v.dest = 0
  · exact .inl c
  · exact .inr ((h.mem _).2 ⟨c, .inr (.inr rfl)⟩)

theorem Loc.setTemp {v : Locals} (h : Loc T v) {p : Nat} (h0 : p ≠ 0) (hp : p ∉ T) :
    Loc ((insert p T).erase v.temp) ⟨p, v.kv, v.dest⟩ := by
  have h1 := h.tk
  have h2 := h.td
  have h3 := h.kd
  rw [h.mem] at hp
  constructor
  · intro q
    rw [Finset.mem_erase, Finset.mem_insert, h.mem]
    simp only
    omega
  all_goals
    simp only
    omega

theorem Loc.setKv {v : Locals} (h : Loc T v) {p : Nat} (h0 : p ≠ 0) (hp : p ∉ T) :
    Loc ((insert p T).erase v.kv) ⟨v.temp, p, v.dest⟩ := by
  have h1 := h.tk
  have h2 := h.td
  have h3 := h.kd
  rw [h.mem] at hp
  constructor
  · intro q
    rw [Finset.mem_erase, Finset.mem_insert, h.mem]
    simp only
    omega
  all_goals
    simp only
    omega

theorem Loc.setDest {v : Locals} (h : Loc T v) {p : Nat} (h0 : p ≠ 0) (hp : p ∉ T) :
    Loc ((insert p T).erase v.dest) ⟨v.temp, v.kv, p⟩ := by
  have h1 := h.tk
  have h2 := h.td
  have h3 := h.kd
  rw [h.mem] at hp
  constructor
  · intro q
    rw [Finset.mem_erase, Finset.mem_insert, h.mem]
    simp only
    omega
  all_goals
    simp only
    omega

theorem Loc.zero : Loc ∅ ⟨0, 0, 0⟩ := by
  constructor
  · intro q; simp
  all_goals simp

theorem Loc.clear {v : Locals} (h : Loc T v) : ((T.erase v.temp).erase v.kv).erase v.dest = ∅ := by
  ext q
  simp only [Finset.mem_erase, h.mem, Finset.notMem_empty, iff_false]
  tauto

theorem Loc.kv_erase {v : Locals} (h : Loc T v) : v.kv = 0 ∨ v.kv ∈ T.erase v.temp := by
  have h1 := h.tk
  rw [Finset.mem_erase, h.mem]
  omega

theorem Loc.dest_erase {v : Locals} (h : Loc T v) : v.dest = 0 ∨ v.dest ∈ (T.erase v.temp).erase v.kv := by
  have h2 := h.td
  have h3 := h.kd
  rw [Finset.mem_erase, Finset.mem_erase, h.mem]
  omega

/-! ## One entry -/

theorem colVec_ofNat (k : Nat) : colVec 8 (BitVec.ofNat 64 k) = colVec 8 (BitVec.ofNat 8 k) := by
  funext i j
  have hi := i.2
  show bitF ((BitVec.ofNat 64 k).getLsbD (8 - 1 - i)) = bitF ((BitVec.ofNat 8 k).getLsbD (8 - 1 - i))
  rw [BitVec.getLsbD_ofNat, BitVec.getLsbD_ofNat]
  have h1 : decide (8 - 1 - i.val < 64) = true := by simp; omega
  have h2 : decide (8 - 1 - i.val < 8) = true := by simp; omega
  rw [h1, h2]

theorem tableEntry_run (hl : lib.Ok) (ho : Own s T) {v : Locals} (hv : Loc T v) {e : AffineTransform} {f : Aff8}
    (he : A8 s T e f) {q d : Nat} (hd : d < 4) {Q : M32} (hq : Holds s T q (slice d hd (mat32 Q * mat32 csl)))
    (sk : Vector (BitVec 8) 256) (k : Nat) :
    Run (tableEntry lib e sk q k v) s fun r s' => ∃ T', Ext 0 s T s' T' ∧ Loc T' r.2 ∧
      r.1 = lin Q (L (placed d sk[(ap8 f (BitVec.ofNat 8 k)).toNat]!)) := by
  rw [tableEntry]
  refine Run.bind ((zero_to ho.ok (ho.canFree hv.kv_mem) 8 1).run ho hv.kv_mem) ?_
  rintro kv s1 ⟨x1, pk, -, k0, -, kT, -⟩
  have v1 := hv.setKv k0 kT
  have mk : kv ∈ (insert kv T).erase v.kv := (v1.mem kv).2 ⟨k0, .inr (.inl rfl)⟩
  refine Run.bind (initVec_tmp x1.own pk mk (BitVec.ofNat 64 k)) ?_
  rintro _ s2 ⟨x2, pk, -⟩
  rw [colVec_ofNat] at pk
  have e2 := (x1.trans x2).a8 he
  have tm := v1.temp_mem
  simp only at tm
  refine Run.bind ((mul_to hl x2.own.ok e2.lin.1 pk (x2.own.canFree tm)).run x2.own tm) ?_
  rintro t s3 ⟨x3, pt, -, t0, -, tT, ft⟩
  have v3 := v1.setTemp t0 tT
  simp only at v3
  have e3 := x3.a8 e2
  have km := v3.kv_mem
  simp only at km
  have hA : NewTo (MatGf2Add t e.vector_translation kv) kv s3 _ := add_to x3.own.ok pt e3.vec.1 (x3.own.canFree km)
  refine Run.bind (hA.run x3.own km) ?_
  rintro kv' s4 ⟨x4, pk, -, k0', -, kT', fk⟩
  have v4 := v3.setKv k0' kT'
  simp only at v4
  rw [show mat8 f.Mat * colVec 8 (BitVec.ofNat 8 k) = colVec 8 (lin f.Mat (BitVec.ofNat 8 k)) from mul_colVec _ _,
    colVec_add] at pk
  obtain ⟨y, ey, hy, hlt⟩ := C65_getDigitalFromVec x4.own.ok (by omega) pk
  refine Run.step ey ?_
  have hyv : y.toNat = (ap8 f (BitVec.ofNat 8 k)).toNat := by
    have h8 : y.setWidth 8 = lin f.Mat (BitVec.ofNat 8 k) ^^^ f.Vec := by
      apply colVec_inj
      rw [← hy]
      funext i j
      have hi := i.2
      show bitF ((y.setWidth 8).getLsbD (8 - 1 - i)) = bitF (y.getLsbD (8 - 1 - i))
      rw [BitVec.getLsbD_setWidth]
      have : decide (8 - 1 - i.val < 8) = true := by simp; omega
      rw [this]; simp
    unfold ap8
    rw [← h8, BitVec.toNat_setWidth, Nat.mod_eq_of_lt hlt]
  refine Run.step (liftC_run s4 (rd_get sk (show y.toNat < 256 from hlt))) ?_
  rw [hyv]
  have mk' := (v4.mem kv').2 ⟨k0', .inr (.inl rfl)⟩
  refine Run.bind (initVec_tmp x4.own pk mk' _) ?_
  rintro _ s5 ⟨x5, pk, -⟩
  rw [setWidth_bit (by omega) 8 (by omega)] at pk
  have x05 := (((x1.trans x2).trans x3).trans x4).trans x5
  have hq5 := x05.holds hq
  have dm := v4.dest_mem
  simp only at dm
  refine Run.bind ((mul_to hl x5.own.ok hq5.1 pk (x5.own.canFree dm)).run x5.own dm) ?_
  rintro ds s6 ⟨x6, pd, -, d0, -, dT, -⟩
  have v6 := v4.setDest d0 dT
  simp only at v6
  obtain ⟨z, ez, hz, -⟩ := C65_get32FromVec x6.own.ok rfl pd
  refine Run.step ez ?_
  refine Run.pure ⟨_, (x05.trans x6).cast rfl, v6, ?_⟩
  apply colVec_inj (n := 32)
  rw [hz, slice_mul, Matrix.mul_assoc, show mat32 csl * colVec 32 _ = _ from mul_colVec _ _, lin_csl,
    show mat32 Q * colVec 32 _ = _ from mul_colVec _ _]

/-! ## The tables of one round -/

theorem roundTables_run (hl : lib.Ok) (ho : Own s T) {v : Locals} (hv : Loc T v) {g : Globals} {i : Nat} (hi : i < 32)
    {e : Nat → Aff8} (hE : ∀ d, d < 4 → A8 s T ((g.E[i]!)[d]!)[0]! (e d)) {Q : M32} {QLi : Vector Nat 4}
    (hq : ∀ d (hd : d < 4), Holds s T QLi[d]! (slice d hd (mat32 Q * mat32 csl))) (r : BitVec 32)
    (Tab : Vector (Vector (Vector (BitVec 32) 256) 4) 32) :
    Run (roundTables lib g i QLi r Tab v) s fun a s' => ∃ T', Ext 0 s T s' T' ∧ Loc T' a.2 ∧
      ∀ x d k, x < 32 → d < 4 → k < 256 → ((a.1[x]!)[d]!)[k]! =
        if x = i then lin Q (L (placed d ((g.skbox_enc[i]!)[d]!)[(ap8 (e d) (BitVec.ofNat 8 k)).toNat]!)) ^^^
          (if d = 3 then r else 0)
        else ((Tab[x]!)[d]!)[k]! := by
  rw [roundTables]
  refine Run.forUp (fun t (a : Vector (Vector (Vector (BitVec 32) 256) 4) 32 × Locals) s' =>
    ∃ T', Ext 0 s T s' T' ∧ Loc T' a.2 ∧
      ∀ x d k, x < 32 → d < 4 → k < 256 → ((a.1[x]!)[d]!)[k]! =
        if x = i ∧ k < t then
          lin Q (L (placed d ((g.skbox_enc[i]!)[d]!)[(ap8 (e d) (BitVec.ofNat 8 k)).toNat]!)) ^^^
          (if d = 3 then r else 0)
        else ((Tab[x]!)[d]!)[k]!) (by omega) ⟨T, Ext.refl ho, hv, ?_⟩ ?_ ?_
  · intro x d k _ _ _
    rw [if_neg (by omega)]
  · rintro t ⟨Tab1, v1⟩ s1 - ht ⟨T1, x1, l1, h1⟩
    simp only at l1 h1
    refine Run.bind (P := fun (a : Vector (Vector (Vector (BitVec 32) 256) 4) 32 × Locals) s' =>
      ∃ T', Ext 0 s1 T1 s' T' ∧ Loc T' a.2 ∧ ∀ x d k, x < 32 → d < 4 → k < 256 → ((a.1[x]!)[d]!)[k]! =
        if x = i ∧ k = t then lin Q (L (placed d ((g.skbox_enc[i]!)[d]!)[(ap8 (e d) (BitVec.ofNat 8 k)).toNat]!))
        else ((Tab1[x]!)[d]!)[k]!) ?_ ?_
    · refine Run.forUp (fun u (a : Vector (Vector (Vector (BitVec 32) 256) 4) 32 × Locals) s' =>
        ∃ T', Ext 0 s1 T1 s' T' ∧ Loc T' a.2 ∧ ∀ x d k, x < 32 → d < 4 → k < 256 → ((a.1[x]!)[d]!)[k]! =
        if x = i ∧ k = t ∧ d < u then
          lin Q (L (placed d ((g.skbox_enc[i]!)[d]!)[(ap8 (e d) (BitVec.ofNat 8 k)).toNat]!))
        else ((Tab1[x]!)[d]!)[k]!) (by omega) ⟨T1, Ext.refl x1.own, l1, ?_⟩ ?_ ?_
      · intro x d k _ _ _
        rw [if_neg (by omega)]
      · rintro d ⟨Tab2, v2⟩ s2 - hd ⟨T2, x2, l2, h2⟩
        simp only at l2 h2
        have x02 := x1.trans x2
        refine Run.step (liftC_run s2 (rd3_get g.E (show i < 36 by omega) (show d < 5 by omega) (by omega))) ?_
        refine Run.step (liftC_run s2 (rd2_get g.skbox_enc hi hd)) ?_
        refine Run.step (liftC_run s2 (rd_get QLi hd)) ?_
        refine Run.bind (tableEntry_run hl x2.own l2 (x02.a8 (hE d hd)) hd (x02.holds (hq d hd)) _ t) ?_
        rintro ⟨y, v3⟩ s3 ⟨T3, x3, l3, hy⟩
        simp only at l3 hy
        obtain ⟨Tab3, hT3, g3⟩ := wr3_get Tab2 (i := i) (k := d) (t := t) hi hd ht y
        refine Run.step (liftC_run s3 hT3) ?_
        refine Run.pure ⟨T3, x2.trans x3, l3, ?_⟩
        intro x d' k hx hd' hk
        simp only
        rw [g3 x d' k hx hd' hk]
        by_cases c : x = i ∧ d' = d ∧ k = t
        · obtain ⟨rfl, rfl, rfl⟩ := c
          rw [if_pos ⟨rfl, rfl, rfl⟩, if_pos (by omega), hy]
        · rw [if_neg c, h2 x d' k hx hd' hk]
          by_cases c2 : x = i ∧ k = t ∧ d' < d
          · rw [if_pos c2, if_pos (by omega)]
          · rw [if_neg c2, if_neg (by omega)]
      · rintro ⟨Tab2, v2⟩ s2 ⟨T2, x2, l2, h2⟩
        refine ⟨T2, x2, l2, ?_⟩
        intro x d k hx hd hk
        rw [h2 x d k hx hd hk]
        by_cases c : x = i ∧ k = t
        · rw [if_pos c, if_pos (by omega)]
        · rw [if_neg c, if_neg (by omega)]
    · rintro ⟨Tab2, v2⟩ s2 ⟨T2, x2, l2, h2⟩
      simp only at l2 h2
      refine Run.step (liftC_run s2 (rd3_get Tab2 hi (show 3 < 4 by omega) ht)) ?_
      obtain ⟨Tab3, hT3, g3⟩ := wr3_get Tab2 (i := i) (k := 3) (t := t) hi (by omega) ht (((Tab2[i]!)[3]!)[t]! ^^^ r)
      refine Run.step (liftC_run s2 hT3) ?_
      refine Run.pure ⟨T2, x1.trans x2, l2, ?_⟩
      intro x d k hx hd hk
      simp only
      rw [g3 x d k hx hd hk]
      by_cases c : x = i ∧ d = 3 ∧ k = t
      · obtain ⟨rfl, rfl, rfl⟩ := c
        rw [if_pos ⟨rfl, rfl, rfl⟩, if_pos (by omega), h2 x 3 k hx (by omega) hk, if_pos ⟨rfl, rfl⟩, if_pos rfl]
      · rw [if_neg c, h2 x d k hx hd hk]
        by_cases c2 : x = i ∧ k = t
        · obtain ⟨rfl, rfl⟩ := c2
          rw [if_pos ⟨rfl, rfl⟩, if_pos (by omega), if_neg (by omega)]
          exact BitVec.xor_zero.symm
        · rw [if_neg c2, h1 x d k hx hd hk]
          by_cases c3 : x = i ∧ k < t
          · rw [if_pos c3, if_pos (show x = i ∧ k < t + 1 by omega)]
          · rw [if_neg c3, if_neg (show ¬ (x = i ∧ k < t + 1) by omega)]
  · rintro ⟨Tab1, v1⟩ s1 ⟨T1, x1, l1, h1⟩
    refine ⟨T1, x1, l1, ?_⟩
    intro x d k hx hd hk
    rw [h1 x d k hx hd hk]
    by_cases c : x = i
    · rw [if_pos c, if_pos ⟨c, hk⟩]
    · rw [if_neg c, if_neg (by omega)]

theorem Points.ne {p q r c : Nat} {A : Matrix (Fin r) (Fin c) (ZMod 2)} (h : Points s p A) (hq : s.obj q = none) :
    q ≠ p := by
  rintro rfl
  obtain ⟨m, hm, -⟩ := h
  rw [hq] at hm; cases hm

/-- A matrix that was allocated in between is freed. -/
theorem drop_run {β : Type} {f : Unit → MM β} {P : β → Heap → Prop} {p r c : Nat} {A : Matrix (Fin r) (Fin c) (ZMod 2)}
    (he : Ext (k + 1) s T s' T') (h0 : s.obj p = none) (hp : Holds s' T' p A)
    (h : Ext k s T (setObj s' p none) T' → Run (f ()) (setObj s' p none) P) : Run (MatGf2Free p >>= f) s' P := by
  have e := free_holds he.own.ok hp.1
  obtain ⟨⟨m, hm, -⟩, hT⟩ := hp
  exact Run.step e (h (he.drop h0 hm hT))

theorem _root_.WB.m4ri.Holds.setObj {p q r c : Nat} {A : Matrix (Fin r) (Fin c) (ZMod 2)} (h : Holds s T p A) (hne : p ≠ q) :
    Holds (setObj s q none) T p A := ⟨h.1.setObj _ hne, h.2⟩

theorem encTables_run (hl : lib.Ok) (ho : Own s T) {v : Locals} (hv : Loc T v) {g : Globals} {i : Nat} (hi : i < 32)
    {R : Row} (hR : RowRel s T g i R) {c : Nat} (hc : Holds s T c (mat32 csl))
    (Tab : Vector (Vector (Vector (BitVec 32) 256) 4) 32) :
    Run (encTables lib g c i Tab v) s fun a s' => ∃ T', Ext 0 s T s' T' ∧ Loc T' a.2 ∧
      ∀ x d k, x < 32 → d < 4 → k < 256 → ((a.1[x]!)[d]!)[k]! =
        if x = i then
          lin (R.q 0).Mat (L (placed d ((g.skbox_enc[i]!)[d]!)[(ap8 (R.e d 0) (BitVec.ofNat 8 k)).toNat]!)) ^^^
          (if d = 3 then (R.q 0).Vec else 0)
        else ((Tab[x]!)[d]!)[k]! := by
  have h0 := ho.ok
  rw [encTables]
  refine Run.step (liftC_run s (rd2_get g.Q (show i < 36 by omega) (show 0 < 2 by omega))) ?_
  refine Run.bind ((mul_new hl h0 (hR.Q 0 (by omega)).lin.1 hc.1).more h0 (Ext.refl ho)) ?_
  rintro QL s1 ⟨x1, pQ, nQ, tQ, -, -⟩
  refine Run.bind ((sliceQL_new x1.own.ok (show 0 < 4 by omega) pQ).more h0 x1) ?_
  rintro q0 s2 ⟨x2, p0, n0, t0, f2, m0⟩
  have d0 := Points.ne pQ m0
  replace pQ := f2.points pQ (pQ.ne_zero x1.own.ok)
  refine Run.bind ((sliceQL_new x2.own.ok (show 1 < 4 by omega) pQ).more h0 x2) ?_
  rintro q1 s3 ⟨x3, p1, n1, t1, f3, m1⟩
  have d1 := Points.ne pQ m1
  have d10 := Points.ne p0 m1
  replace pQ := f3.points pQ (pQ.ne_zero x2.own.ok)
  replace p0 := f3.points p0 (p0.ne_zero x2.own.ok)
  refine Run.bind ((sliceQL_new x3.own.ok (show 2 < 4 by omega) pQ).more h0 x3) ?_
  rintro q2 s4 ⟨x4, p2, n2, t2, f4, m2⟩
  have d2 := Points.ne pQ m2
  have d20 := Points.ne p0 m2
  have d21 := Points.ne p1 m2
  replace pQ := f4.points pQ (pQ.ne_zero x3.own.ok)
  replace p0 := f4.points p0 (p0.ne_zero x3.own.ok)
  replace p1 := f4.points p1 (p1.ne_zero x3.own.ok)
  refine Run.bind ((sliceQL_new x4.own.ok (show 3 < 4 by omega) pQ).more h0 x4) ?_
  rintro q3 s5 ⟨x5, p3, n3, t3, f5, m3⟩
  have d3 := Points.ne pQ m3
  have d30 := Points.ne p0 m3
  have d31 := Points.ne p1 m3
  have d32 := Points.ne p2 m3
  replace pQ := f5.points pQ (pQ.ne_zero x4.own.ok)
  replace p0 := f5.points p0 (p0.ne_zero x4.own.ok)
  replace p1 := f5.points p1 (p1.ne_zero x4.own.ok)
  replace p2 := f5.points p2 (p2.ne_zero x4.own.ok)
  refine Run.step (liftC_run s5 (rd2_get g.Q (show i < 36 by omega) (show 0 < 2 by omega))) ?_
  have hR5 := Ext.row x5 hR
  obtain ⟨y, ey, hy, -⟩ := C65_get32FromVec x5.own.ok rfl (hR5.Q 0 (by omega)).vec.1
  obtain rfl := colVec_inj hy
  refine Run.step ey ?_
  refine Run.bind (roundTables_run hl x5.own hv hi (e := fun d => R.e d 0) hR5.E (Q := (R.q 0).Mat)
    (QLi := #v[q0, q1, q2, q3]) ?_ _ Tab) ?_
  · intro d hd
    obtain rfl | rfl | rfl | rfl : d = 0 ∨ d = 1 ∨ d = 2 ∨ d = 3 := by omega
    · exact ⟨p0, t0⟩
    · exact ⟨p1, t1⟩
    · exact ⟨p2, t2⟩
    · exact ⟨p3, t3⟩
  rintro ⟨Tab', v'⟩ s6 ⟨T6, x6, l6, h6⟩
  have y6 := x5.trans x6
  have hQ := x6.holds ⟨pQ, tQ⟩
  have hq0 := x6.holds ⟨p0, t0⟩
  have hq1 := x6.holds ⟨p1, t1⟩
  have hq2 := x6.holds ⟨p2, t2⟩
  have hq3 := x6.holds ⟨p3, t3⟩
  refine drop_run (k := 4) y6 nQ hQ fun y6 => ?_
  replace hq0 := hq0.setObj d0
  replace hq1 := hq1.setObj d1
  replace hq2 := hq2.setObj d2
  replace hq3 := hq3.setObj d3
  refine drop_run (k := 3) y6 n0 hq0 fun y6 => ?_
  replace hq1 := hq1.setObj d10
  replace hq2 := hq2.setObj d20
  replace hq3 := hq3.setObj d30
  refine drop_run (k := 2) y6 n1 hq1 fun y6 => ?_
  replace hq2 := hq2.setObj d21
  replace hq3 := hq3.setObj d31
  refine drop_run (k := 1) y6 n2 hq2 fun y6 => ?_
  replace hq3 := hq3.setObj d32
  refine drop_run (k := 0) y6 n3 hq3 fun y6 => ?_
  exact Run.pure ⟨T6, y6, l6, h6⟩

/-! ## Composition of transforms -/

/-- The two matrices of the transform are different from `c`. -/
def Away (c : Nat) (a : AffineTransform) : Prop := a.linear_map ≠ c ∧ a.vector_translation ≠ c

/-- What composing two transforms does. -/
def MixPost (s : Heap) (T : Finset Nat) (v : Locals) (f h : Aff32) (r : AffineTransform × Nat) (s' : Heap) : Prop :=
  ∃ T', Ext 2 s T s' T' ∧ Loc T' { v with temp := r.2 } ∧ (∃ m, A32 s' T' r.1 m ∧ ∀ x, ap32 m x = ap32 f (ap32 h x)) ∧
    s.obj r.1.linear_map = none ∧ s.obj r.1.vector_translation = none ∧ r.1.linear_map ≠ r.1.vector_translation

theorem MixPost.away {v : Locals} {f h : Aff32} {r : AffineTransform × Nat} (hm : MixPost s T v f h r s') {c n m : Nat}
    {A : Matrix (Fin n) (Fin m) (ZMod 2)} (hc : Holds s T c A) : Away c r.1 := by
  obtain ⟨_, _, _, _, h1, h2, -⟩ := hm
  exact ⟨Points.ne hc.1 h1, Points.ne hc.1 h2⟩

theorem mix_run (hl : lib.Ok) (ho : Own s T) {v : Locals} (hv : Loc T v) {a b : AffineTransform} {f h : Aff32}
    (ha : A32 s T a f) (hb : A32 s T b h) {x : Nat → MM Nat}
    (hx : ∀ (s' : Heap) (t : Nat) (V W : Matrix (Fin 32) (Fin 1) (ZMod 2)), s'.Ok → Points s' t V →
      Points s' a.vector_translation W → NewMat (x t) s' (V + W)) :
    Run (do
      let l ← GenMatGf2Mul lib a.linear_map b.linear_map
      let temp ← MatGf2Mul lib a.linear_map b.vector_translation v.temp
      let w ← x temp
      pure ((⟨l, w⟩ : AffineTransform), temp) : MM _) s (MixPost s T v f h) := by
  have h0 := ho.ok
  refine Run.bind ((mul_new hl h0 ha.lin.1 hb.lin.1).more h0 (Ext.refl ho)) ?_
  rintro l s1 ⟨x1, pl, nl, tl, -, -⟩
  have a1 := x1.a32 ha
  have b1 := x1.a32 hb
  refine Run.bind ((mul_to hl x1.own.ok a1.lin.1 b1.vec.1 (x1.own.canFree hv.temp_mem)).run x1.own hv.temp_mem) ?_
  rintro t s2 ⟨x2, pt, -, t0, -, tT, -⟩
  have v2 := hv.setTemp t0 tT
  have a2 := x2.a32 a1
  have hl2 := x2.holds ⟨pl, tl⟩
  refine Run.bind ((hx s2 t _ _ x2.own.ok pt a2.vec.1).more h0 (x1.trans x2)) ?_
  rintro w s3 ⟨x3, pw, nw, tw, f3, mw⟩
  have hne := Points.ne hl2.1 mw
  have hl3 := f3.points hl2.1 (hl2.1.ne_zero x2.own.ok)
  obtain ⟨m, hm, hmv⟩ := exists32 (mat32 f.Mat * mat32 h.Mat) (mat32 f.Mat * colVec 32 h.Vec + colVec 32 f.Vec)
  refine Run.pure ⟨_, x3, v2, ⟨m, ⟨?_, ?_⟩, ?_⟩, nl, nw, hne.symm⟩
  · rw [hm]; exact ⟨hl3, hl2.2⟩
  · rw [hmv]; exact ⟨pw, tw⟩
  · exact mix32_of hm (funext fun i => congrFun (congrFun hmv i) 0)

theorem mixM_run (hl : lib.Ok) (ho : Own s T) {v : Locals} (hv : Loc T v) {a b : AffineTransform} {f h : Aff32}
    (ha : A32 s T a f) (hb : A32 s T b h) : Run (mixM lib a b v.temp) s (MixPost s T v f h) :=
  mix_run hl ho hv ha hb (x := fun t => GenMatGf2Add t a.vector_translation) (fun _ _ _ _ hs hp hq => add_new hs hp hq)

theorem mixCD_run (hl : lib.Ok) (ho : Own s T) {v : Locals} (hv : Loc T v) {a b : AffineTransform} {f h : Aff32}
    (ha : A32 s T a f) (hb : A32 s T b h) : Run (mixCD lib a b v.temp) s (MixPost s T v f h) :=
  mix_run hl ho hv ha hb (x := fun t => GenMatGf2Add a.vector_translation t) (fun _ _ V W hs hp hq => by
    rw [add_comm V W]; exact add_new hs hq hp)

end WB.m4ri.sm4
