import Mathlib.LinearAlgebra.Matrix.Transvection
import Verif.Proof.M4riDjb
import Verif.Proof.M4riStrassen

/-!
# M4RI's programs of row additions: compilation and execution (helper lemmas)
-/
namespace WB.m4w

open WB.cmp (Mem Mem2)
open Matrix

/-- Execution of `ops` on the rows `W` with the rows `V` as source gives `T * W + L * V`. -/
def Realises {r c : Nat} (ops : List DjbOp) (T : Matrix (Fin r) (Fin r) (ZMod 2)) (L : Matrix (Fin r) (Fin c) (ZMod 2)) : Prop :=
  ∀ ⦃k : Nat⦄ ⦃W V : Mzd⦄ ⦃W0 : Matrix (Fin r) (Fin k) (ZMod 2)⦄ ⦃B : Matrix (Fin c) (Fin k) (ZMod 2)⦄, Rep W W0 → Rep V B →
    Ok (applyOps V ops W) fun W' => Sh W W' ∧ Rep W' (T * W0 + L * B) ∧ (W.Clean → V.Clean → W'.Clean)

theorem rep_width {W V : Mzd} {r c k : Nat} {W0 : Matrix (Fin r) (Fin k) (ZMod 2)} {B : Matrix (Fin c) (Fin k) (ZMod 2)} (hW : Rep W W0) (hV : Rep V B) :
    V.width = W.width := by unfold Mzd.width; rw [hW.ncols, hV.ncols]

theorem realises_nil {r c : Nat} : Realises [] (1 : Matrix (Fin r) (Fin r) (ZMod 2)) (0 : Matrix (Fin r) (Fin c) (ZMod 2)) := by
  intro k W V W0 B hW hV
  unfold applyOps
  rw [Ok.pure_iff, Matrix.one_mul, Matrix.zero_mul, add_zero]
  exact ⟨Sh.refl W, hW, fun h _ => h⟩

theorem realises_source {r c : Nat} {ops : List DjbOp} {T : Matrix (Fin r) (Fin r) (ZMod 2)} {L : Matrix (Fin r) (Fin c) (ZMod 2)} (h : Realises ops T L)
    (t : Fin r) (s : Fin c) : Realises (⟨t, s, .source⟩ :: ops) T (T * Matrix.single t s (1 : ZMod 2) + L) := by
  intro k W V W0 B hW hV
  unfold applyOps
  rw [Ok.bind_iff]
  simp only []
  refine (combine_n hW.wf (r := t) (block := 0) (wide := W.width) (by rw [hW.nrows]; exact t.2) (by omega) [(V, s)] ?_).mono ?_
  · intro p hp
    rw [List.mem_singleton.1 hp]
    exact ⟨hV.wf, by show (s : Nat) < V.nrows; rw [hV.nrows]; exact s.2, rep_width hW hV⟩
  · intro N ⟨sh, hN⟩
    have hR : Rep N (W0 + Matrix.single t s (1 : ZMod 2) * B) := by
      refine ⟨sh.wf hW.wf, sh.nrows.trans hW.nrows, sh.ncols.trans hW.ncols, fun i j => ?_⟩
      have hj : (j : Nat) / 64 < W.width := lt_width (by rw [hW.ncols]; exact j.2)
      rw [hN, bitF_xor, hW.bit, Matrix.add_apply]
      congr 1
      by_cases hi : i = t
      · rw [hi, Matrix.single_mul_apply_same, one_mul, decide_eq_true (by omega), Bool.true_and, ← hV.bit]
        unfold rowsum
        simp
      · rw [Matrix.single_mul_apply_of_ne _ _ _ _ _ hi, decide_eq_false (fun h => hi (Fin.ext h.1))]
        rfl
    have hC : W.Clean → V.Clean → N.Clean := by
      intro h1 h2 a ha j h3 h4
      rw [sh.nrows] at ha
      rw [sh.ncols] at h3
      rw [sh.width] at h4
      have : rowsum [(V, (s : Nat))] j = V.bit s j := by unfold rowsum; simp
      rw [hN, h1 a ha j h3 h4, this, h2 s (by rw [hV.nrows]; exact s.2) j (by rw [hV.ncols, ← hW.ncols]; exact h3) (by rw [rep_width hW hV]; exact h4)]
      simp
    refine (h hR hV).mono fun W' ⟨sh', hW', hC'⟩ => ⟨sh.trans sh', ?_, fun h1 h2 => hC' (hC h1 h2) h2⟩
    rw [Matrix.mul_add, ← Matrix.mul_assoc, add_assoc, ← Matrix.add_mul] at hW'
    exact hW'

theorem realises_target {r c : Nat} {ops : List DjbOp} {T : Matrix (Fin r) (Fin r) (ZMod 2)} {L : Matrix (Fin r) (Fin c) (ZMod 2)} (h : Realises ops T L)
    (t s : Fin r) : Realises (⟨t, s, .target⟩ :: ops) (T * Matrix.transvection t s (1 : ZMod 2)) L := by
  intro k W V W0 B hW hV
  unfold applyOps
  rw [Ok.bind_iff]
  simp only []
  refine (combine_n hW.wf (r := t) (block := 0) (wide := W.width) (by rw [hW.nrows]; exact t.2) (by omega) [(W, s)] ?_).mono ?_
  · intro p hp
    rw [List.mem_singleton.1 hp]
    exact ⟨hW.wf, by show (s : Nat) < W.nrows; rw [hW.nrows]; exact s.2, rfl⟩
  · intro N ⟨sh, hN⟩
    have hR : Rep N (Matrix.transvection t s (1 : ZMod 2) * W0) := by
      refine ⟨sh.wf hW.wf, sh.nrows.trans hW.nrows, sh.ncols.trans hW.ncols, fun i j => ?_⟩
      have hj : (j : Nat) / 64 < W.width := lt_width (by rw [hW.ncols]; exact j.2)
      rw [hN, bitF_xor, hW.bit]
      by_cases hi : i = t
      · rw [hi, Matrix.transvection_mul_apply_same, one_mul, decide_eq_true (by omega), Bool.true_and, ← hW.bit s]
        unfold rowsum
        simp
      · rw [Matrix.transvection_mul_apply_of_ne _ _ _ _ hi, decide_eq_false (fun h => hi (Fin.ext h.1))]
        exact add_zero _
    have hC : W.Clean → N.Clean := by
      intro h1 a ha j h3 h4
      rw [sh.nrows] at ha
      rw [sh.ncols] at h3
      rw [sh.width] at h4
      have : rowsum [(W, (s : Nat))] j = W.bit s j := by unfold rowsum; simp
      rw [hN, h1 a ha j h3 h4, this, h1 s (by rw [hW.nrows]; exact s.2) j h3 h4]
      simp
    refine (h hR hV).mono fun W' ⟨sh', hW', hC'⟩ => ⟨sh.trans sh', ?_, fun h1 h2 => hC' (hC h1) h2⟩
    rw [← Matrix.mul_assoc] at hW'
    exact hW'

/-! ## The loop of the compiler -/

/-- The rows with a bit in column `k` -/
def colCount (A : Mzd) (r k : Nat) : Nat := ((Finset.range r).filter fun a => A.bit a k = true).card

theorem colCount_le (A : Mzd) (r k : Nat) : colCount A r k ≤ r := by
  unfold colCount
  exact le_trans (Finset.card_filter_le _ _) (by rw [Finset.card_range])

/-- A bound on the operations that are still to come -/
def pot (A : Mzd) (r : Nat) : Nat → Nat
  | 0 => 0
  | k + 1 => r * k + colCount A r k

theorem pot_le (A : Mzd) (r n : Nat) : pot A r n ≤ r * n := by
  cases n with
  | zero => exact Nat.zero_le _
  | succ k => have := colCount_le A r k; show r * k + _ ≤ r * (k + 1); rw [Nat.mul_add]; omega

theorem pot_pred (A : Mzd) (r k : Nat) : pot A r k ≤ pot A r (k + 1) := le_trans (pot_le A r k) (Nat.le_add_right _ _)

theorem pot_clear {A B : Mzd} {r k t : Nat} (ht : t < r) (h1 : A.bit t k = true) (h2 : B.bit t k = false) (h3 : ∀ a, a ≠ t → B.bit a k = A.bit a k) :
    pot B r (k + 1) + 1 = pot A r (k + 1) := by
  have e : ((Finset.range r).filter fun a => B.bit a k = true) = ((Finset.range r).filter fun a => A.bit a k = true).erase t := by
    ext a
    simp only [Finset.mem_erase, Finset.mem_filter]
    by_cases ha : a = t
    · subst ha; simp [h2]
    · rw [h3 a ha]; simp [ha]
  have hm : t ∈ (Finset.range r).filter fun a => A.bit a k = true := Finset.mem_filter.2 ⟨Finset.mem_range.2 ht, h1⟩
  show r * k + colCount B r k + 1 = r * k + colCount A r k
  unfold colCount
  rw [e, add_assoc, Finset.card_erase_add_one hm]

/-- What holds before each round -/
structure DjbInv {r c : Nat} (A0 : Matrix (Fin r) (Fin c) (ZMod 2)) (M : Mzd) (n : Nat) (A : Mzd) (z : Djb) : Prop where
  sh : Sh M A
  rep : ∃ (X : Matrix (Fin r) (Fin c) (ZMod 2)) (T : Matrix (Fin r) (Fin r) (ZMod 2)) (L : Matrix (Fin r) (Fin c) (ZMod 2)),
    Rep A X ∧ IsUnit T ∧ Realises z.ops T L ∧ T * X + L = A0
  high : ∀ a, a < r → ∀ j, n ≤ j → j < 64 * A.width → A.bit a j = false
  le : n ≤ c
  zr : z.nrows = r
  zc : z.ncols = c
  len : z.ops.length + pot A r n ≤ r * c

theorem HeapOk.set {A : Mzd} {S S' : Nat → Prop} {h : RowHeap} (ho : HeapOk A S h) (e : ∀ a, S a ↔ S' a) : HeapOk A S' h := by
  rwa [show S = S' from funext fun a => propext (e a)] at ho

theorem transvection_sq {r : Nat} {t s : Fin r} (h : t ≠ s) : Matrix.transvection t s (1 : ZMod 2) * Matrix.transvection t s (1 : ZMod 2) = 1 := by
  rw [Matrix.transvection_mul_transvection_same _ _ h, show (1 : ZMod 2) + 1 = 0 from by decide, Matrix.transvection_zero]

theorem mat_self {r c : Nat} (X : Matrix (Fin r) (Fin c) (ZMod 2)) : X + X = 0 := by
  ext i j
  exact CharTwo.add_self_eq_zero _

theorem inv_clear {r c : Nat} {A0 : Matrix (Fin r) (Fin c) (ZMod 2)} {M A B : Mzd} {z : Djb} {k t : Nat} (inv : DjbInv A0 M (k + 1) A z) (ht : t < r)
    (hb : A.bit t k = true) (sh : Sh A B) (hB : ∀ a b, B.bit a b = if a = t ∧ b = k then false else A.bit a b) :
    DjbInv A0 M (k + 1) B { z with ops := ⟨t, k, .source⟩ :: z.ops } ∧ pot B r (k + 1) + 1 = pot A r (k + 1) := by
  have hk : k < c := inv.le
  obtain ⟨X, T, L, hX, hT, hL, hA0⟩ := inv.rep
  have hp := pot_clear (A := A) (B := B) ht hb (by rw [hB, if_pos ⟨rfl, rfl⟩]) (fun a ha => by rw [hB, if_neg (fun h => ha h.1)])
  refine ⟨⟨inv.sh.trans sh, ?_, ?_, inv.le, inv.zr, inv.zc, ?_⟩, hp⟩
  · generalize hE : Matrix.single (⟨t, ht⟩ : Fin r) (⟨k, hk⟩ : Fin c) (1 : ZMod 2) = E
    refine ⟨X + E, T, T * E + L, ⟨sh.wf hX.wf, sh.nrows.trans hX.nrows, sh.ncols.trans hX.ncols, fun i j => ?_⟩, hT,
      hE ▸ realises_source hL ⟨t, ht⟩ ⟨k, hk⟩, ?_⟩
    · rw [hB, Matrix.add_apply, ← hX.bit, ← hE]
      by_cases hij : (i : Nat) = t ∧ (j : Nat) = k
      · rw [if_pos hij, hij.1, hij.2, hb, show i = ⟨t, ht⟩ from Fin.ext hij.1, show j = ⟨k, hk⟩ from Fin.ext hij.2, Matrix.single_apply_same]
        decide
      · rw [if_neg hij, Matrix.single_apply_of_ne, add_zero]
        exact fun h => hij ⟨by rw [← h.1], by rw [← h.2]⟩
    · rw [Matrix.mul_add, ← hA0]
      have e := mat_self (T * E)
      generalize T * E = Y at *
      generalize T * X = Z at *
      calc Z + Y + (Y + L) = Z + L + (Y + Y) := by abel
        _ = Z + L := by rw [e, add_zero]
  · intro a ha j h1 h2
    rw [hB, if_neg (by omega)]
    exact inv.high a ha j h1 (by rwa [sh.width] at h2)
  · have := inv.len
    show z.ops.length + 1 + _ ≤ _
    omega

theorem inv_add {r c : Nat} {A0 : Matrix (Fin r) (Fin c) (ZMod 2)} {M A B : Mzd} {z : Djb} {k t g : Nat} (inv : DjbInv A0 M (k + 1) A z) (ht : t < r) (hg : g < r) (hgt : t ≠ g)
    (hb : A.bit t k = true) (hgb : A.bit g k = true) (sh : Sh A B) (hB : ∀ a b, B.bit a b = addBit A.bit t g 0 A.ncols a b) :
    DjbInv A0 M (k + 1) B { z with ops := ⟨t, g, .target⟩ :: z.ops } ∧ pot B r (k + 1) + 1 = pot A r (k + 1) := by
  have hk : k < c := inv.le
  obtain ⟨X, T, L, hX, hT, hL, hA0⟩ := inv.rep
  have hBo : ∀ a, a ≠ t → ∀ j, B.bit a j = A.bit a j := fun a ha j => by
    rw [hB]; exact if_neg (fun h => ha h.1)
  have hBt : ∀ j, j < c → B.bit t j = (A.bit t j ^^ A.bit g j) := fun j hj => by
    rw [hB]; exact if_pos ⟨rfl, Nat.zero_le _, by rw [hX.ncols]; exact hj⟩
  have hp := pot_clear (A := A) (B := B) ht hb (by rw [hBt k hk, hb, hgb]; rfl) (fun a ha => hBo a ha k)
  have hne : (⟨t, ht⟩ : Fin r) ≠ ⟨g, hg⟩ := fun h => hgt (Fin.mk.inj h)
  refine ⟨⟨inv.sh.trans sh, ?_, ?_, inv.le, inv.zr, inv.zc, ?_⟩, hp⟩
  · have hR := realises_target hL ⟨t, ht⟩ ⟨g, hg⟩
    have hs := transvection_sq hne
    have hE : ∀ i j, (Matrix.transvection (⟨t, ht⟩ : Fin r) ⟨g, hg⟩ (1 : ZMod 2) * X) i j = bitF (B.bit i j) := by
      intro i j
      by_cases hi : i = ⟨t, ht⟩
      · rw [hi, Matrix.transvection_mul_apply_same, one_mul, hBt j j.2, bitF_xor, ← hX.bit, ← hX.bit]
      · rw [Matrix.transvection_mul_apply_of_ne _ _ _ _ hi, hBo i (fun h => hi (Fin.ext h)), hX.bit]
    generalize Matrix.transvection (⟨t, ht⟩ : Fin r) ⟨g, hg⟩ (1 : ZMod 2) = E at *
    refine ⟨E * X, T * E, L, ⟨sh.wf hX.wf, sh.nrows.trans hX.nrows, sh.ncols.trans hX.ncols, fun i j => (hE i j).symm⟩, hT.mul (IsUnit.of_mul_eq_one _ hs), hR, ?_⟩
    rw [Matrix.mul_assoc, ← Matrix.mul_assoc E, hs, Matrix.one_mul, hA0]
  · intro a ha j h1 h2
    rw [sh.width] at h2
    rw [hB]
    unfold addBit
    split_ifs with hx
    · rw [inv.high t ht j h1 h2, inv.high g hg j h1 h2]; rfl
    · exact inv.high a ha j h1 h2
  · have := inv.len
    show z.ops.length + 1 + _ ≤ _
    omega

theorem loop_ok {r c : Nat} {A0 : Matrix (Fin r) (Fin c) (ZMod 2)} {M : Mzd} {junk : Nat → Nat} (hr : 0 < r) :
    ∀ fuel n A h z, DjbInv A0 M n A z → HeapOk A (fun a => a < r) h → n + pot A r n < fuel →
      Ok (djbLoop junk r fuel n A h z) fun s => DjbInv A0 M 0 s.2 s.1
  | 0, _, _, _, _, _, _, h => by omega
  | fuel + 1, n, A, h, z, inv, ho, hf => by
    unfold djbLoop
    by_cases hn : n = 0
    · rw [if_pos hn, Ok.pure_iff]
      exact hn ▸ inv
    rw [if_neg hn]
    obtain ⟨k, rfl⟩ : ∃ k, n = k + 1 := ⟨n - 1, by omega⟩
    rw [show k + 1 - 1 = k from rfl]
    obtain ⟨X, T, L, hX, hT, hL, hA0⟩ := inv.rep
    have hk : k < c := inv.le
    have hkw : k < 64 * A.width := by unfold Mzd.width; rw [hX.ncols]; omega
    have size := ho.size
    have cnt : 0 < h.count := by obtain ⟨i, hi, _⟩ := ho.all 0 hr; omega
    have ht := ho.sub 0 cnt
    unfold heap_front
    rw [Mem.get_eq (show 0 < h.data.size by omega), C_ok_bind]
    generalize hte : h.data.cell 0 = t at *
    rw [read_bit hX.wf (by rw [hX.nrows]; exact ht) (by rw [hX.ncols]; exact hk), C_ok_bind]
    cases hb : A.bit t k
    · simp only [Bool.not_false, if_true]
      have top : ∀ a, a < r → A.bit a k = false := by
        intro a ha
        obtain ⟨i, hi, e⟩ := ho.all a ha
        have := ho.ord.front i hi
        rw [e, hte] at this
        refine no_bit this hkw fun j h1 h2 => ?_
        by_cases hj : j = k
        · rw [hj]; exact hb
        · exact inv.high t ht j (by omega) h2
      refine loop_ok hr fuel k A h z ⟨inv.sh, inv.rep, fun a ha j h1 h2 => ?_, by omega, inv.zr, inv.zc, ?_⟩ ho ?_
      · by_cases hj : j = k
        · rw [hj]; exact top a ha
        · exact inv.high a ha j (by omega) h2
      · exact le_trans (Nat.add_le_add_left (pot_pred A r k) _) inv.len
      · have := pot_pred A r k
        omega
    · simp only [Bool.not_true, Bool.false_eq_true, if_false]
      have hS : ∀ a, a < r → a < A.nrows := fun a ha => by rw [hX.nrows]; exact ha
      rw [Ok.bind_iff]
      refine (pop_ok hX.wf ho hS cnt).mono ?_
      intro H ⟨ho', hcnt⟩
      rw [hte] at ho'
      -- what follows the choice
      have cont : ∀ (B : Mzd) (z' : Djb), DjbInv A0 M (k + 1) B z' → pot B r (k + 1) + 1 = pot A r (k + 1) → (∀ a, a ≠ t → ∀ j, B.bit a j = A.bit a j) → Sh A B →
          Ok (do djbLoop junk r fuel (k + 1) B (← heap_push junk H t B) z') fun s => DjbInv A0 M 0 s.2 s.1 := by
        intro B z' inv' hp hB sh
        have ho2 : HeapOk B (fun a => a < r ∧ a ≠ t) H := ho'.congr fun a ha => key_congr sh (hB a ha.2)
        rw [Ok.bind_iff]
        refine (push_ok (sh.wf hX.wf) ho2 (fun a ha => by rw [sh.nrows]; exact hS a ha.1) (by rw [sh.nrows]; exact hS t ht) (fun h => h.2 rfl)).mono ?_
        intro H2 ho3
        refine loop_ok hr fuel (k + 1) B H2 z' inv' (ho3.set fun a => ?_) (by omega)
        constructor
        · rintro (h | h)
          · exact h.1
          · rw [h]; exact ht
        · intro h
          by_cases e : a = t
          · exact Or.inr e
          · exact Or.inl ⟨h, e⟩
      -- the bit is cleared
      have clear : Ok (do
          let A ← mzd_write_bit A t k false
          let z ← djb_push_back z t k .source
          djbLoop junk r fuel (k + 1) A (← heap_push junk H t A) z) fun s => DjbInv A0 M 0 s.2 s.1 := by
        rw [Ok.bind_iff]
        refine (write_bit hX.wf (hS t ht) (by rw [hX.ncols]; exact hk) false).mono ?_
        intro B ⟨sh, hB⟩
        obtain ⟨inv', hp⟩ := inv_clear inv ht hb sh hB
        unfold djb_push_back
        rw [if_pos ⟨by rw [inv.zr]; exact ht, Or.inl (by rw [inv.zc]; exact hk), Or.inr (by decide)⟩]
        exact cont B _ inv' hp (fun a ha j => by rw [hB, if_neg (fun h => ha h.1)]) sh
      by_cases h2 : 2 ≤ r
      · rw [if_pos h2]
        have size' := ho'.size
        have cnt' : 0 < H.count := by
          obtain ⟨i, hi, _⟩ := ho'.all (if t = 0 then 1 else 0) (by split_ifs <;> omega)
          omega
        have hg := ho'.sub 0 cnt'
        rw [Mem.get_eq (show 0 < H.data.size by omega), C_ok_bind]
        generalize H.data.cell 0 = g at *
        rw [read_bit hX.wf (hS g hg.1) (by rw [hX.ncols]; exact hk), C_ok_bind]
        cases hgb : A.bit g k
        · simp only [Bool.false_eq_true, if_false]
          exact clear
        · simp only [if_true]
          rw [C_ok_bind, Ok.bind_iff]
          refine (row_add hX.wf (hS t ht) (hS g hg.1) (by rw [hX.ncols]; omega) (Ne.symm hg.2)).mono ?_
          intro B ⟨sh, hB⟩
          obtain ⟨inv', hp⟩ := inv_add inv ht hg.1 (Ne.symm hg.2) hb hgb sh hB
          unfold djb_push_back
          rw [if_pos ⟨by rw [inv.zr]; exact ht, Or.inr (by decide), Or.inl (by rw [inv.zr]; exact hg.1)⟩]
          exact cont B _ inv' hp (fun a ha j => by rw [hB]; exact if_neg (fun h => ha h.1)) sh
      · rw [if_neg h2]
        exact clear

/-- `djb_compile` of a matrix whose unused bits are zero -/
theorem compile_ok {r c : Nat} {A0 : Matrix (Fin r) (Fin c) (ZMod 2)} {M : Mzd} {junk : Nat → Nat} (hr : 0 < r) (hM : Rep M A0) (hc : M.Clean) :
    Ok (djb_compile junk M) fun s => DjbInv A0 M 0 s.2 s.1 := by
  unfold djb_compile
  rw [Ok.bind_iff]
  refine Ok.forUp (P := fun i h => HeapOk M (fun a => a < i) h) (Nat.zero_le _) ((HeapOk.init M junk).set fun a => ⟨fun h => h.elim, fun h => absurd h (Nat.not_lt_zero a)⟩) ?_ ?_
  · intro i h _ hi ho
    refine (push_ok hM.wf ho (fun a ha => by omega) hi (lt_irrefl i)).mono fun H hH => hH.set fun a => by omega
  · intro h ho
    rw [hM.nrows] at ho ⊢
    refine loop_ok hr _ _ _ _ _ ⟨Sh.refl M, ⟨A0, 1, 0, hM, isUnit_one, realises_nil, by rw [Matrix.one_mul, add_zero]⟩, ?_, by rw [hM.ncols], rfl, hM.ncols, ?_⟩ ho ?_
    · intro a ha j h1 h2
      exact hc a (by rw [hM.nrows]; exact ha) j h1 h2
    · have := pot_le M r M.ncols
      rw [hM.ncols] at this ⊢
      show 0 + _ ≤ _
      omega
    · have := pot_le M r M.ncols
      have e : (M.ncols + 1) * (r + 1) = r * M.ncols + M.ncols + r + 1 := by ring
      omega

end WB.m4w
