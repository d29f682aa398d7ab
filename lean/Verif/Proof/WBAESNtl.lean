import Verif.Model.WBAESNtl
import Verif.Proof.AESLoop
import Verif.Proof.WBAESM4ri
import Verif.Proof.WBSM4Ntl

/-!
# The tables of the NTL based AES demo (helper lemmas)
-/
namespace WB.ntl.aes
open WB.aes
open WB.wbsm4 (rd3 wr3)

theorem int2vec_num {n : Nat} (hn : n ≤ 32) (x : BitVec 32) : int2vec x n = .ok (numVec n x) := by
  unfold int2vec
  obtain ⟨v, e⟩ := SetLength_eq default n
  rw [e]
  let t : Nat → VecGF2 := fun k => ⟨n, fun j => if n ≤ j.val + k then vecOf n (bitS n) x j else v j⟩
  have h0 : t 0 = ⟨n, v⟩ := by
    show VecGF2.mk n _ = _
    congr 1
    funext j
    rw [if_neg (by have := j.2; omega)]
  have hend : t n = numVec n x := by
    show VecGF2.mk n _ = VecGF2.mk n _
    congr 1
    funext j
    rw [if_pos (by omega)]
  rw [← h0, ← hend]
  refine forUpC_eq t fun k hk => ?_
  have hb : (x >>> k).umod 2 = 1 ↔ x.getLsbD k = true := by
    show x >>> k % 2 = 1 ↔ _
    rw [← BitVec.toNat_inj, BitVec.toNat_umod, BitVec.toNat_ushiftRight, BitVec.getLsbD, Nat.testBit_eq_decide_div_mod_eq,
      Nat.shiftRight_eq_div_pow]
    simp
  have hput : ∀ a, a = bitF (x.getLsbD k) → (t k).put (n - 1 - k) a = .ok (t (k + 1)) := by
    rintro _ rfl
    show (VecGF2.mk n _).put _ _ = _
    rw [vput_run (by omega)]
    congr 2
    funext j
    show (if j.val = n - 1 - k then _ else if n ≤ j.val + k then _ else _) = if n ≤ j.val + (k + 1) then _ else _
    have hj := j.2
    by_cases c : j.val = n - 1 - k
    · rw [if_pos c, if_pos (by omega)]
      show _ = bitF (x.getLsbD (n - 1 - j.val))
      rw [c, show n - 1 - (n - 1 - k) = k by omega]
    · rw [if_neg c]
      by_cases c2 : n ≤ j.val + k
      · rw [if_pos c2, if_pos (by omega)]
      · rw [if_neg c2, if_neg (by omega)]
  by_cases hx : x.getLsbD k = true
  · rw [if_pos (hb.2 hx)]
    exact hput 1 (by rw [hx]; rfl)
  · rw [if_neg (fun h => hx (hb.1 h))]
    exact hput 0 (by rw [Bool.not_eq_true] at hx; rw [hx]; rfl)

theorem vec2int_eq (v : VecGF2) (n : Nat) : vec2int v n = digits 32 v n := by
  unfold vec2int digits
  refine forUp_congr _ fun i d _ _ => ?_
  cases v.get i with
  | error e => rfl
  | ok a =>
    simp only [C_pure_bind]
    have : d * (2 : BitVec 32) = d <<< 1 := by
      apply BitVec.eq_of_toNat_eq
      rw [BitVec.toNat_mul, BitVec.toNat_shiftLeft, Nat.shiftLeft_eq]
      rfl
    rw [this]
    by_cases h : a = 1
    · rw [if_pos h, if_pos h]
    · rw [if_neg h, if_neg h]
      exact congrArg Except.ok (BitVec.add_zero _).symm

theorem vec2int_num {n : Nat} (hn : n ≤ 32) (x : BitVec n) : vec2int (numVec n x) n = .ok (x.setWidth 32) := by
  rw [vec2int_eq, digits_numVec 32 x hn]

theorem vec2int32 (x : BitVec 32) : vec2int (numVec 32 x) 32 = .ok x := by
  rw [vec2int_num (Nat.le_refl _), BitVec.setWidth_eq]

theorem mulInt8 (A : M8) (x : Nat) :
    mulInt ⟨8, 8, matOf 8 (bitS 8) A⟩ (BitVec.ofNat 32 x) 8 = .ok ((lin A (BitVec.ofNat 8 x)).setWidth 32) := by
  unfold mulInt
  rw [ok_bind (int2vec_num (by decide) _)]
  have e : numVec 8 (BitVec.ofNat 32 x) = numVec 8 (BitVec.ofNat 8 x) := by
    rw [← numVec_setWidth (BitVec.ofNat 32 x) (Nat.le_refl 8)]
    congr 1
    apply BitVec.eq_of_toNat_eq
    simp only [BitVec.toNat_setWidth, BitVec.toNat_ofNat]
    omega
  rw [e, ok_bind (mulVec_num A _)]
  exact vec2int_num (by decide) _

/-- The objects hold the matrices `w`. -/
structure Holds (m : Mixing) (w : WB.aes.Mixing) : Prop where
  m8 : ∀ i k, i < 10 → k < 16 → (m.mb_8x8[i]!)[k]! = ⟨8, ⟨8, 8, matOf 8 (bitS 8) ((w.mb_8x8[i]!)[k]!)[0]!⟩,
    ⟨8, 8, matOf 8 (bitS 8) ((w.mb_8x8[i]!)[k]!)[1]!⟩⟩
  m32 : ∀ i k, i < 10 → k < 4 → (m.mb_32x32[i]!)[k]! = ⟨32, ⟨32, 32, matOf 32 (bitS 32) ((w.mb_32x32[i]!)[k]!)[0]!⟩,
    ⟨32, 32, matOf 32 (bitS 32) ((w.mb_32x32[i]!)[k]!)[1]!⟩⟩

variable {m : Mixing} {w : WB.aes.Mixing} {wl : Lib} {i j : Nat}

theorem mat8_eq (h : Holds m w) (hw : LibOk wl) (hi : i < 10) (hj : j < 16) (x : Nat) :
    (rd2 m.mb_8x8 i j >>= fun r => mulInt r.mat (BitVec.ofNat 32 x) 8) =
      (rd3 w.mb_8x8 i j 0 >>= fun A => wl.MatMulNumM8 A (BitVec.ofNat 8 x) >>= fun y => pure (y.setWidth 32)) := by
  rw [rd2_get _ hi hj, C_pure_bind, h.m8 i j hi hj, rd3_get _ hi hj (by decide), C_pure_bind, hw.u8, C_pure_bind]
  exact mulInt8 _ x

theorem boxInput_eq (h : Holds m w) (hw : LibOk wl) (hi : i < 10) (hj : j < 16) (T : Tables) (x : Nat) :
    boxInput m T i j x = WB.aes.boxInput wl w T i j x := by
  unfold boxInput WB.aes.boxInput
  simp only [rd2_get m.mb_8x8 (show i - 1 < 10 by omega) hj, rd3_get w.mb_8x8 (show i - 1 < 10 by omega) hj (show 1 < 2 by decide),
    h.m8 (i - 1) j (by omega) hj, C_pure_bind, mulInt8, hw.u8]
  rfl

theorem fillBox_eq (h : Holds m w) (hw : LibOk wl) (hi : i < 10) (hj : j < 16) (ek : Vector (BitVec 8) 176) (x : Nat) (T : Tables) :
    fillBox m ek i j x T = WB.aes.fillBox wl w ek i j x T := by
  unfold fillBox WB.aes.fillBox
  rw [boxInput_eq h hw hi hj]

theorem fillBoxes_eq (h : Holds m w) (hw : LibOk wl) (env : Env) (T : Tables) (ek : Vector (BitVec 8) 176) :
    fillBoxes env m T ek = WB.aes.fillBoxes env wl w T ek := by
  unfold fillBoxes WB.aes.fillBoxes
  refine forUp_congr _ fun i p _ hi => ?_
  obtain ⟨T, ek⟩ := p
  simp only
  congr 1
  funext ek
  congr 1
  refine forUp_congr _ fun j T _ hj => ?_
  have e : (fun x t => rd2 m.mb_8x8 i j >>= fun r => mulInt r.mat (BitVec.ofNat 32 x) 8 >>= fun y => wr3 t i j x y) =
      fun x (t : Vector (Vector (Vector (BitVec 32) 256) 16) 10) => (rd3 w.mb_8x8 i j 0 >>= fun A =>
        wl.MatMulNumM8 A (BitVec.ofNat 8 x) >>= fun y => wr3 t i j x (y.setWidth 32) : C _) := by
    funext x t
    rw [rd2_get _ hi hj, C_pure_bind, h.m8 i j hi hj, rd3_get _ hi hj (by decide), C_pure_bind, hw.u8, C_pure_bind,
      ok_bind (mulInt8 _ x)]
  rw [e]
  congr 1
  funext t
  exact forUp_congr _ fun x T _ _ => fillBox_eq h hw hi hj ek x T

theorem fillBijIn_eq (h : Holds m w) (hw : LibOk wl) (hi : i < 10) (hj : j < 4)
    (t : Vector (Vector (Vector (BitVec 32) 256) 16) 10) : fillBijIn m i j t = WB.aes.fillBijIn wl w i j t := by
  unfold fillBijIn WB.aes.fillBijIn
  refine forUp_congr _ fun x t _ _ => ?_
  have r : ∀ q, q < 4 → rd2 m.mb_8x8 i (4 * j + q) = .ok ⟨8, ⟨8, 8, matOf 8 (bitS 8) ((w.mb_8x8[i]!)[4 * j + q]!)[0]!⟩,
      ⟨8, 8, matOf 8 (bitS 8) ((w.mb_8x8[i]!)[4 * j + q]!)[1]!⟩⟩ := fun q hq => by
    rw [rd2_get _ hi (by omega), h.m8 i _ hi (by omega)]
  have r' : ∀ q, q < 4 → rd3 w.mb_8x8 i (4 * j + q) 0 = .ok ((w.mb_8x8[i]!)[4 * j + q]!)[0]! := fun q hq =>
    rd3_get _ hi (by omega) (by decide)
  simp only [r 0 (by omega), r 1 (by omega), r 2 (by omega), r 3 (by omega), r' 0 (by omega), r' 1 (by omega), r' 2 (by omega),
    r' 3 (by omega), C_pure_bind, mulInt8, hw.u8]

theorem shl_false (x : BitVec 32) (k : Nat) : shlInt false x k = .ok (x <<< k) := by
  unfold shlInt
  rw [if_neg (fun h => Bool.noConfusion h.1)]

theorem mixBox_eq (h : Holds m w) (hw : LibOk wl) (hi : i < 10) (hj : j < 4) (x : Nat) (T : Tables) :
    mixBox m i j x T = WB.aes.mixBox wl w i j x T := by
  unfold mixBox WB.aes.mixBox
  simp only [rd2_get m.mb_32x32 hi hj, h.m32 i j hi hj, rd3_get w.mb_32x32 hi hj (show 0 < 2 by decide),
    rd3_get w.mb_32x32 hi hj (show 1 < 2 by decide), C_pure_bind, int2vec_num (Nat.le_refl 32), mulVec_num, vec2int32, hw.u32,
    shl_false]

theorem mixBoxes_eq (h : Holds m w) (hw : LibOk wl) (T : Tables) : mixBoxes m T = WB.aes.mixBoxes wl w T := by
  unfold mixBoxes WB.aes.mixBoxes
  refine forUp_congr _ fun i T _ hi => forUp_congr _ fun j T _ hj => ?_
  rw [fillBijIn_eq h hw hi hj]
  congr 1
  funext t
  exact forUp_congr _ fun x T _ _ => mixBox_eq h hw hi hj x T

/-! ## The random matrices -/

theorem init_gen (stale : Nat → Nat → ZMod 2) (fuel : Nat) (self : RandMat) {n : Nat} (hn : 3 ≤ n) :
    Gen (1 ≤ fuel) (RandMat.init stale fuel self n) fun r => ∃ A : Matrix (Fin n) (Fin n) (ZMod 2), IsUnit A ∧
      r = ⟨n, ⟨n, n, A⟩, ⟨n, n, A⁻¹⟩⟩ :=
  ⟨fun s => (init_run stale fuel self n s).mono fun _ ⟨A, _, h2, e⟩ => ⟨A, h2, e⟩,
    fun hf => (init_can stale hf self (chain_noUnitRow hn) (chain_unit hn)).mono fun _ e => ⟨_, chain_unit hn, e⟩⟩

/-- The object holds an invertible matrix and its inverse. -/
def IsPair (n : Nat) (r : RandMat) : Prop := ∃ A : Matrix (Fin n) (Fin n) (ZMod 2), IsUnit A ∧ r = ⟨n, ⟨n, n, A⟩, ⟨n, n, A⁻¹⟩⟩

theorem genMixing_gen (stale : Nat → Nat → ZMod 2) (fuel : Nat) (m : Mixing) :
    Gen (1 ≤ fuel) (genMixing stale fuel m) fun m => (∀ i k, i < 10 → k < 16 → IsPair 8 ((m.mb_8x8[i]!)[k]!)) ∧
      ∀ i k, i < 10 → k < 4 → IsPair 32 ((m.mb_32x32[i]!)[k]!) := by
  unfold genMixing
  refine Gen.forUp (fun t m => (∀ i k, i < 10 → k < 16 → i < t → IsPair 8 ((m.mb_8x8[i]!)[k]!)) ∧
      ∀ i k, i < 10 → k < 4 → i < t → IsPair 32 ((m.mb_32x32[i]!)[k]!)) ⟨by omega, by omega⟩ ?_
      (fun m h => ⟨fun i k hi hk => h.1 i k hi hk hi, fun i k hi hk => h.2 i k hi hk hi⟩)
  rintro t m ht ⟨h8, h32⟩
  refine Gen.bind (P := fun m => (∀ i k, i < 10 → k < 16 → i < t → IsPair 8 ((m.mb_8x8[i]!)[k]!)) ∧
      ∀ i k, i < 10 → k < 4 → i < t + 1 → IsPair 32 ((m.mb_32x32[i]!)[k]!)) ?_ ?_
  · refine Gen.forUp (fun u m => (∀ i k, i < 10 → k < 16 → i < t → IsPair 8 ((m.mb_8x8[i]!)[k]!)) ∧
      ∀ i k, i < 10 → k < 4 → i < t ∨ i = t ∧ k < u → IsPair 32 ((m.mb_32x32[i]!)[k]!))
      ⟨h8, fun i k hi hk h => h32 i k hi hk (by omega)⟩ ?_ (fun m h => ⟨h.1, fun i k hi hk h' => h.2 i k hi hk (by omega)⟩)
    rintro u m hu ⟨h8, h32⟩
    refine Gen.step (rd2_get _ ht hu) ?_
    refine Gen.bind (init_gen stale fuel _ (by decide)) ?_
    intro r hr
    obtain ⟨a, ea, ga⟩ := wr2_get m.mb_32x32 ht hu r
    refine Gen.step ea (Gen.pure ⟨h8, ?_⟩)
    intro i k hi hk h
    show IsPair 32 ((a[i]!)[k]!)
    rw [ga i k hi hk]
    by_cases c : i = t ∧ k = u
    · rw [if_pos c]; exact hr
    · rw [if_neg c]; exact h32 i k hi hk (by omega)
  rintro m ⟨h8, h32⟩
  refine Gen.forUp (fun u m => (∀ i k, i < 10 → k < 16 → i < t ∨ i = t ∧ k < u → IsPair 8 ((m.mb_8x8[i]!)[k]!)) ∧
      ∀ i k, i < 10 → k < 4 → i < t + 1 → IsPair 32 ((m.mb_32x32[i]!)[k]!))
      ⟨fun i k hi hk h => h8 i k hi hk (by omega), h32⟩ ?_ (fun m h => ⟨fun i k hi hk h' => h.1 i k hi hk (by omega), h.2⟩)
  rintro u m hu ⟨h8, h32⟩
  refine Gen.step (rd2_get _ ht hu) ?_
  refine Gen.bind (init_gen stale fuel _ (by decide)) ?_
  intro r hr
  obtain ⟨a, ea, ga⟩ := wr2_get m.mb_8x8 ht hu r
  refine Gen.step ea (Gen.pure ⟨?_, h32⟩)
  intro i k hi hk h
  show IsPair 8 ((a[i]!)[k]!)
  rw [ga i k hi hk]
  by_cases c : i = t ∧ k = u
  · rw [if_pos c]; exact hr
  · rw [if_neg c]; exact h8 i k hi hk (by omega)

open m4ri.aes (rows mat_rows lin_rows)

theorem exists_mixing (h8 : ∀ i k, i < 10 → k < 16 → IsPair 8 ((m.mb_8x8[i]!)[k]!))
    (h32 : ∀ i k, i < 10 → k < 4 → IsPair 32 ((m.mb_32x32[i]!)[k]!)) : ∃ w, MixOk w ∧ Holds m w := by
  have c8 : ∀ i k, ∃ A : Matrix (Fin 8) (Fin 8) (ZMod 2), i < 10 → k < 16 → IsUnit A ∧
      (m.mb_8x8[i]!)[k]! = ⟨8, ⟨8, 8, A⟩, ⟨8, 8, A⁻¹⟩⟩ := by
    intro i k
    by_cases c : i < 10 ∧ k < 16
    · obtain ⟨A, hA⟩ := h8 i k c.1 c.2
      exact ⟨A, fun _ _ => hA⟩
    · exact ⟨0, fun h1 h2 => absurd ⟨h1, h2⟩ c⟩
  have c32 : ∀ i k, ∃ A : Matrix (Fin 32) (Fin 32) (ZMod 2), i < 10 → k < 4 → IsUnit A ∧
      (m.mb_32x32[i]!)[k]! = ⟨32, ⟨32, 32, A⟩, ⟨32, 32, A⁻¹⟩⟩ := by
    intro i k
    by_cases c : i < 10 ∧ k < 4
    · obtain ⟨A, hA⟩ := h32 i k c.1 c.2
      exact ⟨A, fun _ _ => hA⟩
    · exact ⟨0, fun h1 h2 => absurd ⟨h1, h2⟩ c⟩
  choose A hA using c8
  choose B hB using c32
  let w : WB.aes.Mixing := ⟨Vector.ofFn fun i => Vector.ofFn fun k => #v[rows (A i k), rows (A i k)⁻¹],
    Vector.ofFn fun i => Vector.ofFn fun k => #v[rows (B i k), rows (B i k)⁻¹]⟩
  have w8 : ∀ i k, i < 10 → k < 16 → (w.mb_8x8[i]!)[k]! = #v[rows (A i k), rows (A i k)⁻¹] := by
    intro i k hi hk
    show ((Vector.ofFn fun i : Fin 10 => Vector.ofFn fun k : Fin 16 => #v[rows (A i k), rows (A i k)⁻¹])[i]!)[k]! = _
    rw [m4ri.aes.ofFn_get _ hi, m4ri.aes.ofFn_get _ hk]
  have w32 : ∀ i k, i < 10 → k < 4 → (w.mb_32x32[i]!)[k]! = #v[rows (B i k), rows (B i k)⁻¹] := by
    intro i k hi hk
    show ((Vector.ofFn fun i : Fin 10 => Vector.ofFn fun k : Fin 4 => #v[rows (B i k), rows (B i k)⁻¹])[i]!)[k]! = _
    rw [m4ri.aes.ofFn_get _ hi, m4ri.aes.ofFn_get _ hk]
  refine ⟨w, ⟨?_, ?_⟩, ⟨?_, ?_⟩⟩
  · intro i k hi hk x
    rw [w32 i k hi hk]
    exact lin_rows (inv_both (hB i k hi hk).1).2 x
  · intro i k hi hk x
    rw [w8 i k hi hk]
    exact lin_rows (inv_both (hA i k hi hk).1).1 x
  · intro i k hi hk
    rw [w8 i k hi hk]
    show _ = RandMat.mk 8 ⟨8, 8, matOf 8 (bitS 8) (rows (A i k))⟩ ⟨8, 8, matOf 8 (bitS 8) (rows (A i k)⁻¹)⟩
    rw [mat_rows, mat_rows]
    exact (hA i k hi hk).2
  · intro i k hi hk
    rw [w32 i k hi hk]
    show _ = RandMat.mk 32 ⟨32, 32, matOf 32 (bitS 32) (rows (B i k))⟩ ⟨32, 32, matOf 32 (bitS 32) (rows (B i k)⁻¹)⟩
    rw [mat_rows, mat_rows]
    exact (hB i k hi hk).2

variable (stale : Nat → Nat → ZMod 2) (fuel : Nat)

theorem computeTables_gen (env : Env) (k : Nat → AES.State) (T : Tables) (ek : Vector (BitVec 8) 176) (hk : KeyOk k ek) :
    Gen (1 ≤ fuel) (computeTables stale fuel env T ek) fun p => (∃ M N, TablesOk k M N p.1) ∧ KeyOkN k 10 p.2 := by
  have hw := libOk_current env
  obtain ⟨t, et, ht⟩ := fillTyi_ok T.TyiTables
  rw [computeTables]
  refine Gen.step et ?_
  refine Gen.bind (genMixing_gen stale fuel _) ?_
  rintro m ⟨h8, h32⟩
  obtain ⟨w, hmix, hold⟩ := exists_mixing h8 h32
  obtain ⟨⟨T1, ek1⟩, e1, hty, hek, hg⟩ := fillBoxes_ok env hw hmix k ek hk { T with TyiTables := t } ht
  refine Gen.step ((fillBoxes_eq hold hw env _ ek).trans e1) ?_
  simp only at hty hek hg ⊢
  obtain ⟨T2, e2, h2⟩ := mixBoxes_ok hw w k T1 ⟨hty, fun a b c ha hb hc => (hg a b c ha hb hc).1, fun p q r hp hq hr => by
    rw [if_neg (fun h => h)]
    exact (hg p q r (by omega) hq hr).2 hp, fun _ _ _ _ _ _ h => h.elim⟩
  refine Gen.step ((mixBoxes_eq hold hw T1).trans e2) ?_
  obtain ⟨xt, ex, hx⟩ := fillXor_ok T2.xorTable
  refine Gen.step ex ?_
  refine Gen.pure ⟨⟨fun p q => ((w.mb_32x32[p]!)[q]!)[0]!, fun p q => ((w.mb_32x32[p]!)[q]!)[1]!, h2.tyi, h2.box,
      ?_, ?_, ?_, hx⟩, hek⟩
  · intro p q r hp hq hr
    have := h2.boxes p q r hp hq hr
    rwa [if_pos trivial] at this
  · intro p q r hp hq hr
    exact h2.out p q r hp hq hr trivial
  · intro p q x hp hq
    exact hmix.m32 p q (by omega) hq x

/-- `n` calls of `computeTables`. -/
theorem loop_gen (env : Env) (k : Nat → AES.State) (T : Tables) (ek : Vector (BitVec 8) 176) (hk : KeyOk k ek) (n : Nat) :
    Gen (1 ≤ fuel) (WB.forUp 0 n (T, ek) fun _ (T, ek) => computeTables stale fuel env T ek) fun p =>
      KeyOk (keySeq k n) p.2 ∧ ∀ m, n = m + 1 → ∃ M N, TablesOk (keySeq k m) M N p.1 := by
  refine Gen.forUp (fun n p => KeyOk (keySeq k n) p.2 ∧ ∀ m, n = m + 1 → ∃ M N, TablesOk (keySeq k m) M N p.1)
    ⟨?_, by omega⟩ ?_ (fun p h => h)
  · intro r hr
    rw [hk r hr]
    unfold keySeq
    split <;> rfl
  · rintro i ⟨T, ek⟩ - ⟨h, -⟩
    refine (computeTables_gen stale fuel env (keySeq k i) T ek h).mono ?_
    rintro ⟨T', ek'⟩ ⟨ht, hk'⟩
    refine ⟨?_, ?_⟩
    · intro r hr
      rw [hk' r hr]
      unfold keySeq
      by_cases c : r < 10
      · rw [if_pos c, if_pos c, if_pos c]; rfl
      · rw [if_neg c, if_neg c, if_neg c]
    · rintro m hm
      obtain rfl : i = m := by omega
      exact ht

end WB.ntl.aes
