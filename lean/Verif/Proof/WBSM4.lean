import Verif.Proof.WBSM4Gen

/-!
# The white-box SM4 demo computes SM4 (helper lemmas)
-/
namespace WB.wbsm4
open SM4 sm4

attribute [local irreducible] S L tau lin ap32 ap8

/-- The tables of round `i`. -/
structure RoundOk (g : Globals) (ctx : Sm4Whitebox) (i : Nat) : Prop where
  M : ∀ j, j < 3 → ∀ x, ap32 (ctx.M[i]!)[j]! x = ap32 (g.EC[i]!)[1]! (ap32 (g.P[i + 1 + j]!)[1]! x)
  T : ∀ d k, d < 4 → k < 256 → ((ctx.Table[i]!)[d]!)[k]! =
    lin (g.Q[i]!)[0]!.Mat (L (placed d
      ((g.skbox_enc[i]!)[d]!)[(ap8 ((g.E[i]!)[d]!)[0]! (BitVec.ofNat 8 k)).toNat]!)) ^^^
      (if d = 3 then (g.Q[i]!)[0]!.Vec else 0)
  C : ∀ x, ap32 ctx.C[i]! x = ap32 (g.P[i + 4]!)[0]! (ap32 (g.P[i]!)[1]! x)
  D : ∀ x, ap32 ctx.D[i]! x = ap32 (g.P[i + 4]!)[0]! (ap32 (g.Q[i]!)[1]! x) ^^^ (g.P[i + 4]!)[0]!.Vec

section
attribute [local semireducible] ap32
theorem ap32_addVec (f : Aff32) (v x : BitVec 32) : ap32 { f with Vec := f.Vec ^^^ v } x = ap32 f x ^^^ v := by
  unfold ap32
  rw [BitVec.xor_assoc]

theorem ap32_eq (f : Aff32) (x : BitVec 32) : ap32 f x = lin f.Mat x ^^^ f.Vec := rfl
end

theorem combine_ok {lib : Lib} (hl : LibOk lib) (env : Env) (g : Globals) (ctx0 : Sm4Whitebox) :
    Ok (sm4_wb_combine_tables env lib g csl ctx0) (fun ctx => (∀ i, i < 32 → RoundOk g ctx i) ∧
      ∀ j, j < 4 → ctx.SE[j]! = (g.P[j]!)[0]! ∧ ctx.FE[j]! = (g.P[32 + j]!)[1]!) := by
  unfold sm4_wb_combine_tables
  refine Ok.bind (P := fun ctx => ∀ i, i < 32 → RoundOk g ctx i) ?_ ?_
  · refine Ok.forUp (fun t ctx => ∀ i, i < t → i < 32 → RoundOk g ctx i) (by omega) (by omega) ?_
      (fun ctx h i hi => h i hi hi)
    intro i ctx _ hi h
    rw [rd2_get g.EC (show i < 36 by omega) (by omega), C_pure_bind,
      rd2_get g.P (show i + 1 < 36 by omega) (by omega), C_pure_bind,
      rd2_get ctx.M hi (by omega), C_pure_bind]
    refine Ok.bind (hl.mix _ _ _) ?_
    intro m0 hm0
    obtain ⟨M1, hM1, gM1⟩ := wr2_get ctx.M (i := i) (k := 0) hi (by omega) m0
    rw [hM1, C_pure_bind, C_pure_bind, rd2_get g.P (show i + 2 < 36 by omega) (by omega), C_pure_bind,
      rd2_get M1 hi (by omega), C_pure_bind]
    refine Ok.bind (hl.mix _ _ _) ?_
    intro m1 hm1
    obtain ⟨M2, hM2, gM2⟩ := wr2_get M1 (i := i) (k := 1) hi (by omega) m1
    rw [hM2, C_pure_bind, C_pure_bind, rd2_get g.P (show i + 3 < 36 by omega) (by omega), C_pure_bind,
      rd2_get M2 hi (by omega), C_pure_bind]
    refine Ok.bind (hl.mix _ _ _) ?_
    intro m2 hm2
    obtain ⟨M3, hM3, gM3⟩ := wr2_get M2 (i := i) (k := 2) hi (by omega) m2
    rw [hM3, C_pure_bind, rd2_get g.Q (show i < 36 by omega) (by omega), C_pure_bind]
    refine Ok.bind (hl.mul _ _ _) ?_
    intro QL hQL
    refine Ok.bind (splitQL_ok env QL) ?_
    intro QLi hQLi
    rw [C_pure_bind]
    refine Ok.bind (roundTables_ok hl g i hi QL QLi hQLi _ ctx.Table) ?_
    intro T hT
    rw [rd2_get g.P (show i + 4 < 36 by omega) (by omega), C_pure_bind,
      rd2_get g.P (show i < 36 by omega) (by omega), C_pure_bind, rd_get ctx.C hi, C_pure_bind]
    refine Ok.bind (hl.mix _ _ _) ?_
    intro c hc
    obtain ⟨C1, hC1, gC1⟩ := wr_get ctx.C (i := i) hi c
    rw [hC1, C_pure_bind, C_pure_bind, rd2_get g.Q (show i < 36 by omega) (by omega), C_pure_bind,
      rd_get ctx.D hi, C_pure_bind]
    refine Ok.bind (hl.mix _ _ _) ?_
    intro dd hd
    obtain ⟨D1, hD1, gD1⟩ := wr_get ctx.D (i := i) hi dd
    rw [hD1, C_pure_bind, rd_get D1 hi, C_pure_bind, C_pure_bind]
    obtain ⟨D2, hD2, gD2⟩ := wr_get D1 (i := i) hi
      { D1[i]! with Vec := D1[i]!.Vec ^^^ (g.P[i + 4]!)[0]!.Vec }
    rw [hD2, C_pure_bind, Ok.pure_iff]
    intro x hxi hx
    by_cases e : x = i
    · subst e
      constructor
      · intro j hj y
        show ap32 (M3[x]!)[j]! y = _
        rw [gM3 x j hx (by omega), gM2 x j hx (by omega), gM1 x j hx (by omega)]
        obtain rfl | rfl | rfl : j = 0 ∨ j = 1 ∨ j = 2 := by omega
        · rw [if_neg (by omega), if_neg (by omega), if_pos (by omega)]; exact hm0 y
        · rw [if_neg (by omega), if_pos (by omega)]; exact hm1 y
        · rw [if_pos (by omega)]; exact hm2 y
      · intro d k hd' hk
        show ((T[x]!)[d]!)[k]! = _
        rw [hT x d k hx hd' hk, if_pos rfl]
        unfold entry
        rw [hQL, lin_csl]
      · intro y
        show ap32 C1[x]! y = _
        rw [gC1 x hx, if_pos rfl, hc]
      · intro y
        show ap32 D2[x]! y = _
        rw [gD2 x hx, if_pos rfl, ap32_addVec, gD1 x hx, if_pos rfl, hd]
    · have hh := h x (by omega) hx
      constructor
      · intro j hj y
        show ap32 (M3[x]!)[j]! y = _
        rw [gM3 x j hx (by omega), gM2 x j hx (by omega), gM1 x j hx (by omega),
          if_neg (by omega), if_neg (by omega), if_neg (by omega)]
        exact hh.M j hj y
      · intro d k hd' hk
        show ((T[x]!)[d]!)[k]! = _
        rw [hT x d k hx hd' hk, if_neg e]
        exact hh.T d k hd' hk
      · intro y
        show ap32 C1[x]! y = _
        rw [gC1 x hx, if_neg e]
        exact hh.C y
      · intro y
        show ap32 D2[x]! y = _
        rw [gD2 x hx, if_neg e, gD1 x hx, if_neg e]
        exact hh.D y
  · intro ctx1 h1
    refine Ok.forUp (fun t ctx => (∀ i, i < 32 → RoundOk g ctx i) ∧
      ∀ j, j < t → j < 4 → ctx.SE[j]! = (g.P[j]!)[0]! ∧ ctx.FE[j]! = (g.P[32 + j]!)[1]!) (by omega)
      ⟨h1, fun j hj => by omega⟩ ?_ (fun ctx h => ⟨h.1, fun j hj => h.2 j hj hj⟩)
    rintro i ctx - hi ⟨hr, hs⟩
    rw [rd2_get g.P (show i < 36 by omega) (by omega), C_pure_bind]
    obtain ⟨SE, hSE, gSE⟩ := wr_get ctx.SE (i := i) hi (g.P[i]!)[0]!
    rw [hSE, C_pure_bind, rd2_get g.P (show 32 + i < 36 by omega) (by omega), C_pure_bind]
    obtain ⟨FE, hFE, gFE⟩ := wr_get ctx.FE (i := i) hi (g.P[32 + i]!)[1]!
    rw [hFE, C_pure_bind, Ok.pure_iff]
    refine ⟨fun i hi => ⟨(hr i hi).M, (hr i hi).T, (hr i hi).C, (hr i hi).D⟩, ?_⟩
    intro j hji hj
    show SE[j]! = _ ∧ FE[j]! = _
    rw [gSE j hj, gFE j hj]
    by_cases e : j = i
    · subst e
      rw [if_pos rfl, if_pos rfl]; exact ⟨rfl, rfl⟩
    · rw [if_neg e, if_neg e]
      exact hs j (by omega) hj

/-! ## Encryption with the tables -/

/-- Everything the tables satisfy. -/
structure TablesOk (rk : Nat → BitVec 32) (g : Globals) (ctx : Sm4Whitebox) : Prop where
  row : ∀ i, i < 36 → g.RowOk i
  sk : ∀ i d k, i < 32 → d < 4 → k < 256 → ((g.skbox_enc[i]!)[d]!)[k]! = S (BitVec.ofNat 8 k ^^^ byte (rk i) d)
  round : ∀ i, i < 32 → RoundOk g ctx i
  ends : ∀ j, j < 4 → ctx.SE[j]! = (g.P[j]!)[0]! ∧ ctx.FE[j]! = (g.P[32 + j]!)[1]!

theorem gen_tables_ok {W : Nat} (hW : 32 ≤ W) {lib : Lib} (hl : LibOk lib) (env : Env) (key : Vector (BitVec 8) 16)
    (g0 : Globals) (ctx0 : Sm4Whitebox) (w : World) :
    OkM (sm4_wb_gen_tables W env lib key g0 ctx0) w
      (fun r _ => TablesOk (roundKey (load (bytes key) 0)) r.1 r.2) := by
  unfold sm4_wb_gen_tables
  rw [OkM.bind_iff, OkM.liftC_iff]
  refine (sm4_setkey_enc_ok hW env key _).mono ?_
  rintro c ⟨-, hk⟩
  rw [OkM.bind_iff, OkM.liftC_iff]
  refine (gen_secrect_sbox_ok env c _ hk g0).mono ?_
  intro g1 hg1
  refine OkM.bind (gen_affine_ok hl g1 w) ?_
  rintro g w1 ⟨hr, hs⟩
  rw [OkM.bind_iff, OkM.liftC_iff]
  refine (initMatrixL_ok hW _).mono ?_
  rintro _ rfl
  rw [OkM.bind_iff, OkM.liftC_iff]
  refine (combine_ok hl env g ctx0).mono ?_
  rintro ctx ⟨h1, h2⟩
  rw [OkM.pure_iff]
  exact ⟨hr, fun i d k hi hd hk => by rw [hs]; exact hg1 i d k hi hd hk, h1, h2⟩

theorem mask_byte (A : BitVec 32) (d : Nat) (hd : d < 4) : (A >>> (24 - 8 * d) &&& 0xff).toNat = (byte A d).toNat := by
  have h : A >>> (24 - 8 * d) &&& 0xff = (byte A d).setWidth 32 := by
    unfold byte
    apply BitVec.eq_of_getLsbD_eq
    intro i hi
    have hm : (0xff : BitVec 32).getLsbD i = decide (i < 8) := by
      have : (0xff : BitVec 32) = BitVec.ofNat 32 (2 ^ 8 - 1) := rfl
      rw [this, BitVec.getLsbD_ofNat, Nat.testBit_two_pow_sub_one]
      simp [hi]
    simp only [BitVec.getLsbD_and, BitVec.getLsbD_ushiftRight, BitVec.getLsbD_setWidth,
      BitVec.getLsbD_extractLsb', hm, hi, decide_true, Bool.true_and, Bool.and_comm]
  rw [h, BitVec.toNat_setWidth]
  exact Nat.mod_eq_of_lt (Nat.lt_of_lt_of_le (BitVec.isLt _) (by decide))

theorem SK32_ok (T : Vector (Vector (Vector (BitVec 32) 256) 4) 32) (i : Nat) (hi : i < 32) (A : BitVec 32) :
    SK32 T (1024 * i) A = .ok (((T[i]!)[0]!)[(byte A 0).toNat]! ^^^ ((T[i]!)[1]!)[(byte A 1).toNat]! ^^^
      ((T[i]!)[2]!)[(byte A 2).toNat]! ^^^ ((T[i]!)[3]!)[(byte A 3).toNat]!) := by
  have hlt : ∀ d, (byte A d).toNat < 256 := fun d => BitVec.isLt _
  have m0 := mask_byte A 0 (by omega)
  have m1 := mask_byte A 1 (by omega)
  have m2 := mask_byte A 2 (by omega)
  have m3 := mask_byte A 3 (by omega)
  have r0 := rdFlat_get T (i := i) (d := 0) hi (by omega) (hlt 0)
  have r1 := rdFlat_get T (i := i) (d := 1) hi (by omega) (hlt 1)
  have r2 := rdFlat_get T (i := i) (d := 2) hi (by omega) (hlt 2)
  have r3 := rdFlat_get T (i := i) (d := 3) hi (by omega) (hlt 3)
  simp only [Nat.mul_zero, Nat.sub_zero, Nat.mul_one, show 24 - 8 = 16 from rfl, show 24 - 8 * 2 = 8 from rfl,
    show 24 - 8 * 3 = 0 from rfl, BitVec.ushiftRight_zero, show 256 * 2 = 512 from rfl,
    show 256 * 3 = 768 from rfl] at m0 m1 m2 m3 r0 r1 r2 r3
  unfold SK32
  rw [m0, m1, m2, m3, r0, C_pure_bind, r1, C_pure_bind, r2, C_pure_bind, r3, C_pure_bind]
  rfl

section
attribute [local semireducible] tau
theorem tau_eq (x : BitVec 32) :
    tau x = word (S (byte x 0)) (S (byte x 1)) (S (byte x 2)) (S (byte x 3)) := by unfold tau; rfl
end

theorem round_ok {lib : Lib} (hl : LibOk lib) {rk : Nat → BitVec 32} {g : Globals} {ctx : Sm4Whitebox}
    (h : TablesOk rk g ctx) (i : Nat) (hi : i < 32) (x0 x1 x2 x3 : BitVec 32) :
    sm4round lib ctx i (ap32 (g.P[i]!)[0]! x0) (ap32 (g.P[i + 1]!)[0]! x1) (ap32 (g.P[i + 2]!)[0]! x2)
      (ap32 (g.P[i + 3]!)[0]! x3) =
      .ok (ap32 (g.P[i + 4]!)[0]! (x0 ^^^ L (tau (x1 ^^^ x2 ^^^ x3 ^^^ rk i)))) := by
  have hr := h.round i hi
  have hi36 : i < 36 := by omega
  unfold sm4round
  rw [rd2_get ctx.M hi (by omega), C_pure_bind, hl.u32, C_pure_bind,
    rd2_get ctx.M hi (by omega), C_pure_bind, hl.u32, C_pure_bind,
    rd2_get ctx.M hi (by omega), C_pure_bind, hl.u32, C_pure_bind]
  rw [hr.M 0 (by omega), hr.M 1 (by omega), hr.M 2 (by omega)]
  have p0 := ((h.row i hi36).P x0).1
  have p1 := ((h.row (i + 1) (by omega)).P x1).1
  have p2 := ((h.row (i + 2) (by omega)).P x2).1
  have p3 := ((h.row (i + 3) (by omega)).P x3).1
  simp only [Nat.add_zero, show i + 1 + 1 = i + 2 by omega, show i + 1 + 2 = i + 3 by omega]
  rw [p1, p2, p3, ← ap32_xor3]
  rw [SK32_ok _ i hi, C_pure_bind, rd_get ctx.C hi, C_pure_bind, hl.u32, C_pure_bind,
    rd_get ctx.D hi, C_pure_bind, hl.u32, C_pure_bind, hr.C, hr.D, p0]
  have key : ∀ d, d < 4 → ((ctx.Table[i]!)[d]!)[(byte (ap32 (g.EC[i]!)[1]! (x1 ^^^ x2 ^^^ x3)) d).toNat]! =
      lin (g.Q[i]!)[0]!.Mat (L (placed d (S (byte (x1 ^^^ x2 ^^^ x3 ^^^ rk i) d)))) ^^^
        (if d = 3 then (g.Q[i]!)[0]!.Vec else 0) := by
    intro d hd
    rw [hr.T d _ hd (BitVec.isLt _), BitVec.ofNat_toNat, BitVec.setWidth_eq]
    have hE := (h.row i hi36).E d hd (byte (x1 ^^^ x2 ^^^ x3) d)
    have hEC := (h.row i hi36).EC (x1 ^^^ x2 ^^^ x3) d hd
    rw [hEC, hE.2, h.sk i d _ hi hd (BitVec.isLt _), BitVec.ofNat_toNat, BitVec.setWidth_eq,
      byte_xor (x1 ^^^ x2 ^^^ x3) (rk i)]
  rw [key 0 (by omega), key 1 (by omega), key 2 (by omega), key 3 (by omega), if_neg (by omega), if_neg (by omega),
    if_neg (by omega), if_pos rfl]
  simp only [show (0 : BitVec 32) = 0#32 from rfl, BitVec.xor_zero]
  rw [← BitVec.xor_assoc (lin _ _ ^^^ lin _ _ ^^^ lin _ _), ← lin_xor, ← lin_xor, ← lin_xor, ← L_xor, ← L_xor, ← L_xor, ← word_placed, ← tau_eq, ← ap32_eq]
  have hq := ((h.row i hi36).Q (L (tau (x1 ^^^ x2 ^^^ x3 ^^^ rk i)))).1
  rw [hq]
  show Except.ok _ = Except.ok _
  congr 1
  rw [ap32_eq, ap32_eq, ap32_eq, lin_xor]
  generalize lin (g.P[i + 4]!)[0]!.Mat x0 = a, lin (g.P[i + 4]!)[0]!.Mat (L (tau (x1 ^^^ x2 ^^^ x3 ^^^ rk i))) = b,
    (g.P[i + 4]!)[0]!.Vec = v
  rw [BitVec.xor_assoc b v v, BitVec.xor_self, BitVec.xor_zero, BitVec.xor_assoc, BitVec.xor_comm v b,
    ← BitVec.xor_assoc]

theorem GET32_ok (b : Vector (BitVec 8) 16) (i : Nat) (h : i + 3 < 16) : GET32 b i = .ok (wordAt b i) := by
  unfold GET32 wordAt
  rw [rd_ok _ _ (show i < 16 by omega), C_pure_bind, rd_ok _ _ (show i + 1 < 16 by omega), C_pure_bind,
    rd_ok _ _ (show i + 2 < 16 by omega), C_pure_bind, rd_ok _ _ h, C_pure_bind]
  rw [bytes_lt b (show i < 16 by omega), bytes_lt b (show i + 1 < 16 by omega), bytes_lt b (show i + 2 < 16 by omega),
    bytes_lt b h, word_placed]
  unfold placed
  simp only [Nat.mul_zero, Nat.sub_zero, Nat.mul_one, show 24 - 8 = 16 from rfl, show 24 - 8 * 2 = 8 from rfl,
    show 24 - 8 * 3 = 0 from rfl, BitVec.shiftLeft_zero]
  rfl

theorem PUT32_ok (n : BitVec 32) (b : Vector (BitVec 8) 16) (i : Nat) (h : i + 3 < 16) :
    Ok (PUT32 n b i) (fun b' => ∀ j, (hj : j < 16) →
      b'[j] = if i ≤ j ∧ j < i + 4 then byte n (j - i) else b[j]) := by
  have := PUT_ok n b i h
  rw [show sm4.low n = n from BitVec.setWidth_eq n] at this
  exact this

theorem enc_ok {lib : Lib} (hl : LibOk lib) {rk : Nat → BitVec 32} {g : Globals} {ctx : Sm4Whitebox}
    (h : TablesOk rk g ctx) (IN OUT : Vector (BitVec 8) 16) :
    Ok (sm4_wb_enc lib IN OUT ctx) (fun o => load (bytes o) 0 = crypt rk (load (bytes IN) 0)) := by
  unfold sm4_wb_enc
  rw [GET32_ok IN 0 (by omega), C_pure_bind, GET32_ok IN 4 (by omega), C_pure_bind, GET32_ok IN 8 (by omega),
    C_pure_bind, GET32_ok IN 12 (by omega), C_pure_bind]
  rw [rd_get ctx.SE (show 0 < 4 by omega), C_pure_bind, hl.u32, C_pure_bind,
    rd_get ctx.SE (show 1 < 4 by omega), C_pure_bind, hl.u32, C_pure_bind,
    rd_get ctx.SE (show 2 < 4 by omega), C_pure_bind, hl.u32, C_pure_bind,
    rd_get ctx.SE (show 3 < 4 by omega), C_pure_bind, hl.u32, C_pure_bind]
  rw [(h.ends 0 (by omega)).1, (h.ends 1 (by omega)).1, (h.ends 2 (by omega)).1, (h.ends 3 (by omega)).1]
  refine Ok.bind (P := fun s => ∃ t, t = rounds rk 32 (load (bytes IN) 0) ∧
    s = (ap32 (g.P[32]!)[0]! t.x0, ap32 (g.P[32 + 1]!)[0]! t.x1, ap32 (g.P[32 + 2]!)[0]! t.x2,
      ap32 (g.P[32 + 3]!)[0]! t.x3)) ?_ ?_
  · refine Ok.forUp (fun i s => ∃ t, t = rounds rk i (load (bytes IN) 0) ∧
      s = (ap32 (g.P[i]!)[0]! t.x0, ap32 (g.P[i + 1]!)[0]! t.x1, ap32 (g.P[i + 2]!)[0]! t.x2,
        ap32 (g.P[i + 3]!)[0]! t.x3)) (by omega) ⟨_, rfl, ?_⟩ ?_ (fun _ h => h)
    · rw [rounds, load_eq]
    · rintro i s - hi ⟨t, ht, rfl⟩
      simp only
      rw [round_ok hl h i hi, C_pure_bind, Ok.pure_iff]
      refine ⟨round (rk i) t, by rw [rounds, ht], ?_⟩
      unfold SM4.round
      simp only [show i + 1 + 1 = i + 2 by omega, show i + 1 + 2 = i + 3 by omega, show i + 1 + 3 = i + 4 by omega]
  · rintro _ ⟨t, ht, rfl⟩
    simp only
    rw [rd_get ctx.FE (show 3 < 4 by omega), C_pure_bind, hl.u32, C_pure_bind,
      rd_get ctx.FE (show 2 < 4 by omega), C_pure_bind, hl.u32, C_pure_bind,
      rd_get ctx.FE (show 1 < 4 by omega), C_pure_bind, hl.u32, C_pure_bind,
      rd_get ctx.FE (show 0 < 4 by omega), C_pure_bind, hl.u32, C_pure_bind]
    rw [(h.ends 0 (by omega)).2, (h.ends 1 (by omega)).2, (h.ends 2 (by omega)).2, (h.ends 3 (by omega)).2]
    have p0 := ((h.row 32 (by omega)).P t.x0).1
    have p1 := ((h.row (32 + 1) (by omega)).P t.x1).1
    have p2 := ((h.row (32 + 2) (by omega)).P t.x2).1
    have p3 := ((h.row (32 + 3) (by omega)).P t.x3).1
    rw [Nat.add_zero, p0, p1, p2, p3]
    refine Ok.bind (PUT32_ok _ _ 0 (by omega)) ?_
    intro b0 h0
    refine Ok.bind (PUT32_ok _ _ 4 (by omega)) ?_
    intro b1 h1
    refine Ok.bind (PUT32_ok _ _ 8 (by omega)) ?_
    intro b2 h2
    refine (PUT32_ok _ _ 12 (by omega)).mono ?_
    intro b3 h3
    refine load_of_bytes ?_
    intro k hk
    unfold crypt
    rw [← ht, bytes_lt b3 (show 0 + k < 16 by omega), h3 _ (by omega), h2 _ (by omega), h1 _ (by omega), h0 _ (by omega)]
    unfold Block.byte Block.reverse
    by_cases c3 : 12 ≤ k
    · rw [if_pos (by omega), show k / 4 = 3 by omega, show k % 4 = 0 + k - 12 by omega]; rfl
    · by_cases c2 : 8 ≤ k
      · rw [if_neg (by omega), if_pos (by omega), show k / 4 = 2 by omega, show k % 4 = 0 + k - 8 by omega]; rfl
      · by_cases c1 : 4 ≤ k
        · rw [if_neg (by omega), if_neg (by omega), if_pos (by omega), show k / 4 = 1 by omega,
            show k % 4 = 0 + k - 4 by omega]; rfl
        · rw [if_neg (by omega), if_neg (by omega), if_neg (by omega), if_pos (by omega), show k / 4 = 0 by omega,
            show k % 4 = 0 + k - 0 by omega]; rfl

end WB.wbsm4
