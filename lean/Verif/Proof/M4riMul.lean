import Mathlib.Algebra.BigOperators.Fin
import Verif.Proof.M4riTable

/-!
# The product of M4RI with tables (helper lemmas)
-/
namespace WB.m4w

open WB.cmp (Mem Mem2)

theorem xsum_mul (m k : Nat) (f : Nat → Bool) : xsum (m * k) f = xsum m fun z => xsum k fun l => f (z * k + l) := by
  induction m with
  | zero => rw [Nat.zero_mul]; rfl
  | succ m ih => rw [Nat.succ_mul, xsum_add, ih, xsum]

theorem mapM_range {α : Type} {n : Nat} {g : Nat → C α} {h : Nat → α} (hg : ∀ z < n, g z = .ok (h z)) :
    (List.range n).mapM g = .ok ((List.range n).map h) := by
  have : ∀ l : List Nat, (∀ z ∈ l, g z = .ok (h z)) → l.mapM g = (.ok (l.map h) : C (List α)) := by
    intro l
    induction l with
    | nil => intro _; rfl
    | cons z l ih =>
      intro hl
      rw [List.mapM_cons, hl z (List.mem_cons_self ..), C_ok_bind, ih fun y hy => hl y (List.mem_cons_of_mem _ hy)]
      rfl
  exact this _ fun z hz => hg z (List.mem_range.1 hz)

theorem rowsum_range (n : Nat) (h : Nat → Mzd × Nat) (b : Nat) :
    rowsum ((List.range n).map h) b = xsum n fun z => (h z).1.bit (h z).2 b := by
  unfold rowsum
  induction n with
  | zero => rfl
  | succ n ih => rw [List.range_succ, List.map_append, List.foldl_append, ih, xsum]; rfl

theorem bm_bit : ∀ k ≤ 16, ∀ b < 64, ((1#64 : Word) <<< k - 1#64).getLsbD b = decide (b < k) := by decide +kernel

theorem lt_pow_of_testBit {x k : Nat} (h : ∀ b, k ≤ b → x.testBit b = false) : x < 2 ^ k := Nat.lt_pow_two_of_testBit _ h

theorem digit_bit {a : Word} {k z l : Nat} (hk : k ≤ 16) : (((a >>> (z * k)) &&& (1#64 <<< k - 1#64)).toNat).testBit l =
    (decide (l < k) && a.getLsbD (z * k + l)) := by
  rw [BitVec.testBit_toNat, BitVec.getLsbD_and, BitVec.getLsbD_ushiftRight]
  by_cases hl : l < 64
  · rw [bm_bit k hk l hl, Bool.and_comm]
  · rw [BitVec.getLsbD_of_ge (1#64 <<< k - 1#64) _ (by omega), decide_eq_false (show ¬ l < k by omega)]
    simp

theorem digit_lt {a : Word} {k z : Nat} (hk : k ≤ 16) : ((a >>> (z * k)) &&& (1#64 <<< k - 1#64)).toNat < 2 ^ k :=
  lt_pow_of_testBit fun b hb => by rw [digit_bit hk, decide_eq_false (by omega)]; rfl

theorem clampK_range (k : Int) : 2 ≤ clampK k ∧ clampK k ≤ 8 := by
  unfold clampK
  split
  · omega
  · split
    · omega
    · omega

variable {A B : Mzd}

/-- One block of `8 * k` columns. -/
theorem mulBlock_spec (wA : A.Wf) (wB : B.Wf) (hAB : A.ncols = B.nrows) (h0 : 0 < B.ncols) {k g i : Nat} (hk1 : 2 ≤ k) (hk2 : k ≤ 8)
    (hi : 8 * k * (i + 1) ≤ A.ncols) (hg : 512 * g < A.nrows) {s : Mzd × (Nat → Tab)} (ws : s.1.Wf) (hs1 : s.1.nrows = A.nrows) (hs2 : s.1.ncols = B.ncols)
    (hT : ∀ z < 8, CanTab B k 0 (s.2 z)) :
    Ok (mulBlock A B k g i s) fun s' => Sh s.1 s'.1 ∧ (∀ z < 8, CanTab B k 0 (s'.2 z)) ∧ ∀ a b, s'.1.bit a b =
      (s.1.bit a b ^^ (decide ((512 * g ≤ a ∧ a < min (512 * g + 512) A.nrows) ∧ b < B.ncols) &&
        xsum (8 * k) fun l => A.bit a (8 * k * i + l) && B.bit (8 * k * i + l) b)) := by
  unfold mulBlock
  simp only []
  have hi' : 8 * k * i + 8 * k ≤ A.ncols := by rw [Nat.mul_succ] at hi; exact hi
  refine Ok.bind (P := fun T => (∀ z < 8, CanTab B k 0 (T z)) ∧ ∀ z < 8, IsTab B (8 * k * i + k * z) 0 k (T z)) ?_ ?_
  · refine Ok.forUp (P := fun y T => (∀ z < 8, CanTab B k 0 (T z)) ∧ ∀ z < y, IsTab B (8 * k * i + k * z) 0 k (T z)) (Nat.zero_le _)
      ⟨hT, fun z hz => absurd hz (by omega)⟩ ?_ (fun T h => h)
    intro z T _ hz ⟨h1, h2⟩
    have hz' : k * z + k ≤ 8 * k := by
      have : k * z ≤ k * 7 := Nat.mul_le_mul_left k (by omega)
      omega
    refine Ok.bind (make_table wB (h1 z hz) (Nat.zero_le _) (by omega) (by omega) h0) ?_
    intro t ⟨h3, h4⟩
    rw [Ok.pure_iff]
    refine ⟨fun y hy => ?_, fun y hy => ?_⟩
    · by_cases hyz : y = z
      · subst hyz; rw [Function.update_self]; exact h4 k (h1 y hy)
      · rw [Function.update_of_ne hyz]; exact h1 y hy
    · by_cases hyz : y = z
      · subst hyz; rw [Function.update_self]; exact h3
      · rw [Function.update_of_ne hyz]; exact h2 y (by omega)
  intro T ⟨h1, h2⟩
  rw [Ok.bind_iff]
  refine Ok.forUp (P := fun j C' => Sh s.1 C' ∧ ∀ a b, C'.bit a b = (s.1.bit a b ^^ (decide ((512 * g ≤ a ∧ a < j) ∧ b < B.ncols) &&
        xsum (8 * k) fun l => A.bit a (8 * k * i + l) && B.bit (8 * k * i + l) b))) (by omega)
    ⟨Sh.refl _, fun a b => by rw [decide_eq_false (by omega)]; simp⟩ ?_ ?_
  · intro j C' hj1 hj2 ⟨sh, hC⟩
    have hw : s.1.width = B.width := by unfold Mzd.width; rw [hs2]
    refine Ok.bind (read_bits wA (show j < A.nrows by omega) (show 0 < 8 * k by omega) (by omega)
      (by unfold Mzd.width; omega)) ?_
    intro a ha
    have hmap := mapM_range (n := 8) (g := fun z => do pure ((T z).T, ← (T z).L.get ((a >>> (z * k)) &&& (1#64 <<< k - 1#64)).toNat))
      (h := fun z => ((T z).T, (T z).L.cell ((a >>> (z * k)) &&& (1#64 <<< k - 1#64)).toNat)) (fun z hz => by
        rw [Mem.get_eq (Nat.lt_of_lt_of_le (digit_lt (by omega)) (h2 z hz).size)]; rfl)
    rw [hmap, C_ok_bind, sh.width]
    refine (combine_n (sh.wf ws) (by rw [sh.nrows, hs1]; omega) (by rw [sh.width]; omega) _ ?_).mono ?_
    · intro p hp
      obtain ⟨z, hz, rfl⟩ := List.mem_map.1 hp
      have hz := List.mem_range.1 hz
      exact ⟨(h1 z hz).wf, Nat.lt_of_lt_of_le ((h2 z hz).lt _ (digit_lt (by omega))) (h1 z hz).rows, by rw [sh.width, hw]; exact (h1 z hz).width⟩
    · intro N ⟨shN, hN⟩
      refine ⟨sh.trans shN, fun r b => ?_⟩
      rw [hN, hC, rowsum_range, Nat.zero_add, hw]
      by_cases hr : r = j
      · rw [hr, decide_eq_false (show ¬ ((512 * g ≤ j ∧ j < j) ∧ b < B.ncols) by omega)]
        by_cases hb : b / 64 < B.width
        · rw [decide_eq_true (show j = j ∧ 0 ≤ b / 64 ∧ b / 64 < B.width from ⟨rfl, Nat.zero_le _, hb⟩)]
          have : ∀ z < 8, (T z).T.bit ((T z).L.cell ((a >>> (z * k)) &&& (1#64 <<< k - 1#64)).toNat) b =
              (decide (b < B.ncols) && xsum k fun l => A.bit j (8 * k * i + (z * k + l)) && B.bit (8 * k * i + (z * k + l)) b) := by
            intro z hz
            have hz' : z * k + k ≤ 8 * k := by
              have : z * k ≤ 7 * k := Nat.mul_le_mul_right k (by omega)
              omega
            rw [(h2 z hz).row _ (digit_lt (by omega)) b (by omega) hb, show decide (0 ≤ b ∧ b < B.ncols) = decide (b < B.ncols) from decide_eq_decide.2 (by omega)]
            congr 1
            refine xsum_congr fun l hl => ?_
            rw [digit_bit (by omega), decide_eq_true hl, ha, decide_eq_true (show z * k + l < 8 * k by omega), Nat.mul_comm k z, Nat.add_assoc (8 * k * i)]
            simp
          rw [xsum_congr this, xsum_and, ← xsum_mul 8 k (fun m => A.bit j (8 * k * i + m) && B.bit (8 * k * i + m) b)]
          by_cases hbn : b < B.ncols
          · rw [decide_eq_true hbn, decide_eq_true (show (512 * g ≤ j ∧ j < j + 1) ∧ b < B.ncols by omega)]
            simp
          · rw [decide_eq_false hbn, decide_eq_false (show ¬ ((512 * g ≤ j ∧ j < j + 1) ∧ b < B.ncols) by omega)]
            simp
        · rw [decide_eq_false (show ¬ (j = j ∧ 0 ≤ b / 64 ∧ b / 64 < B.width) by omega),
            decide_eq_false (show ¬ ((512 * g ≤ j ∧ j < j + 1) ∧ b < B.ncols) from fun h => hb (lt_width h.2))]
          simp
      · rw [decide_eq_false (show ¬ (r = j ∧ 0 ≤ b / 64 ∧ b / 64 < B.width) from fun h => hr h.1)]
        simp only [Bool.false_and, Bool.xor_false]
        congr 2
        rw [decide_eq_decide]
        omega
  · intro C' ⟨sh, hC⟩
    rw [Ok.pure_iff]
    exact ⟨sh, h1, hC⟩

/-- The columns that do not fill a block. -/
theorem mulRest_spec (wA : A.Wf) (wB : B.Wf) (hAB : A.ncols = B.nrows) (h0 : 0 < B.ncols) {c k k' : Nat} (hk1 : 1 ≤ k) (hk2 : k ≤ 8)
    (hkk : k ≤ k') (hc : c + k ≤ A.ncols) {s : Mzd × (Nat → Tab)} (ws : s.1.Wf) (hs1 : s.1.nrows = A.nrows) (hs2 : s.1.ncols = B.ncols)
    (hT : CanTab B k' 0 (s.2 0)) :
    Ok (mulRest A B c k s) fun s' => Sh s.1 s'.1 ∧ CanTab B k' 0 (s'.2 0) ∧ ∀ a b, s'.1.bit a b =
      (s.1.bit a b ^^ (decide (a < A.nrows ∧ b < B.ncols) && xsum k fun l => A.bit a (c + l) && B.bit (c + l) b)) := by
  unfold mulRest
  have hp : 2 ^ k ≤ 2 ^ k' := Nat.pow_le_pow_right (by omega) hkk
  have hT' : CanTab B k 0 (s.2 0) := ⟨hT.wf, hT.width, Nat.le_trans hp hT.rows, Nat.le_trans hp hT.size, hT.zero⟩
  refine Ok.bind (make_table wB hT' (Nat.zero_le _) (by omega) (show c + k ≤ B.nrows by omega) h0) ?_
  intro t ⟨h2, h3⟩
  have h1 := h3 k hT'
  have hw : s.1.width = B.width := by unfold Mzd.width; rw [hs2]
  rw [Ok.bind_iff]
  refine Ok.forUp (P := fun j C' => Sh s.1 C' ∧ ∀ a b, C'.bit a b = (s.1.bit a b ^^ (decide (a < j ∧ b < B.ncols) &&
        xsum k fun l => A.bit a (c + l) && B.bit (c + l) b))) (Nat.zero_le _)
    ⟨Sh.refl _, fun a b => by rw [decide_eq_false (by omega)]; simp⟩ ?_ ?_
  · intro j C' _ hj ⟨sh, hC⟩
    refine Ok.bind (read_bits wA hj (show 0 < k by omega) (by omega) (by unfold Mzd.width; omega)) ?_
    intro a ha
    have hab : ∀ l, a.toNat.testBit l = (decide (l < k) && A.bit j (c + l)) := fun l => by rw [BitVec.testBit_toNat, ha]
    have halt : a.toNat < 2 ^ k := lt_pow_of_testBit fun b hb => by rw [hab, decide_eq_false (by omega)]; rfl
    rw [Mem.get_eq (Nat.lt_of_lt_of_le halt h2.size), C_ok_bind, sh.width]
    refine (combine_n (sh.wf ws) (by rw [sh.nrows, hs1]; omega) (by rw [sh.width]; omega) _ ?_).mono ?_
    · intro p hp
      obtain rfl := List.mem_singleton.1 hp
      exact ⟨h1.wf, Nat.lt_of_lt_of_le (h2.lt _ halt) h1.rows, by rw [sh.width, hw]; exact h1.width⟩
    · intro N ⟨shN, hN⟩
      refine ⟨sh.trans shN, fun r b => ?_⟩
      have hrs : rowsum [(t.T, t.L.cell a.toNat)] b = t.T.bit (t.L.cell a.toNat) b := by unfold rowsum; simp
      rw [hN, hC, hrs, Nat.zero_add, hw]
      by_cases hr : r = j
      · rw [hr, decide_eq_false (show ¬ (j < j ∧ b < B.ncols) by omega)]
        by_cases hb : b / 64 < B.width
        · rw [decide_eq_true (show j = j ∧ 0 ≤ b / 64 ∧ b / 64 < B.width from ⟨rfl, Nat.zero_le _, hb⟩),
            h2.row _ halt b (by omega) hb, show decide (0 ≤ b ∧ b < B.ncols) = decide (b < B.ncols) from decide_eq_decide.2 (by omega)]
          rw [xsum_congr (f := fun l => a.toNat.testBit l && B.bit (c + l) b) (g := fun l => A.bit j (c + l) && B.bit (c + l) b) fun l hl => by rw [hab, decide_eq_true hl]; simp]
          rw [show decide (j < j + 1 ∧ b < B.ncols) = decide (b < B.ncols) from decide_eq_decide.2 (by omega)]
          simp
        · rw [decide_eq_false (show ¬ (j = j ∧ 0 ≤ b / 64 ∧ b / 64 < B.width) by omega),
            decide_eq_false (show ¬ (j < j + 1 ∧ b < B.ncols) from fun h => hb (lt_width h.2))]
          simp
      · rw [decide_eq_false (show ¬ (r = j ∧ 0 ≤ b / 64 ∧ b / 64 < B.width) from fun h => hr h.1)]
        simp only [Bool.false_and, Bool.xor_false]
        congr 2
        rw [decide_eq_decide]
        omega
  · intro C' ⟨sh, hC⟩
    rw [Ok.pure_iff]
    refine ⟨sh, ?_, hC⟩
    show CanTab B k' 0 (Function.update s.2 0 t 0)
    rw [Function.update_self]
    exact h3 k' hT

/-- The first `m` columns of `A` have been processed in the rows before `n`. -/
def Part (A B C' : Mzd) (n m : Nat) : Prop := ∀ a b, C'.bit a b =
  (decide (a < n ∧ b < B.ncols) && xsum m fun l => A.bit a l && B.bit l b)

/-- The same, added to what was there. -/
def PartAcc (A B C0 C' : Mzd) (n m : Nat) : Prop := ∀ a b, C'.bit a b =
  (C0.bit a b ^^ (decide (a < n ∧ b < B.ncols) && xsum m fun l => A.bit a l && B.bit l b))

theorem addmul_tables (wA : A.Wf) (wB : B.Wf) (hAB : A.ncols = B.nrows) (h0 : 0 < B.ncols) {junk : Nat → Nat → Nat} {align : Bool} {k0 : Int} {C' : Mzd}
    (ws : C'.Wf) (hs1 : C'.nrows = A.nrows) (hs2 : C'.ncols = B.ncols) :
    Ok (addmul_m4rm_tables junk align.toNat k0 C' A B) fun D => Sh C' D ∧ PartAcc A B C' D A.nrows A.ncols := by
  unfold addmul_m4rm_tables
  simp only []
  obtain ⟨hk1, hk2⟩ := clampK_range k0
  generalize clampK k0 = k at hk1 hk2
  have hal : align.toNat ≤ 1 := by cases align <;> simp
  have hcan : ∀ z < 8, CanTab B k 0 (mulTables junk align.toNat k B.ncols z) := by
    intro z _
    unfold mulTables mzd_init_window mzd_init
    refine ⟨⟨Nat.le_refl _, ?_⟩, ?_, Nat.le_refl _, Nat.le_refl _, fun j _ _ => ?_⟩
    · unfold Mzd.width
      simp only []
      generalize align.toNat = q at hal ⊢
      omega
    · unfold Mzd.width
      simp only []
      generalize align.toNat = q at hal ⊢
      rw [Nat.add_sub_cancel]
    · unfold Mzd.bit Mzd.word
      simp
  have hkpos : 0 < k := by omega
  have hdm := Nat.div_add_mod A.ncols (8 * k)
  have hdm' := Nat.div_add_mod A.ncols k
  generalize hE : A.ncols / (8 * k) = E at hdm
  have hE1 : ∀ i < E, 8 * k * (i + 1) ≤ A.ncols := fun i hi => Nat.le_trans (Nat.mul_le_mul_left _ hi) (by omega)
  refine Ok.bind (P := fun (s : Mzd × (Nat → Tab)) => Sh C' s.1 ∧ (∀ z < 8, CanTab B k 0 (s.2 z)) ∧ PartAcc A B C' s.1 A.nrows (8 * k * E)) ?_ ?_
  · refine Ok.forUp (P := fun g (s : Mzd × (Nat → Tab)) => Sh C' s.1 ∧ (∀ z < 8, CanTab B k 0 (s.2 z)) ∧ PartAcc A B C' s.1 (min (512 * g) A.nrows) (8 * k * E))
      (Nat.zero_le _) ⟨Sh.refl _, hcan, fun a b => by rw [decide_eq_false (by omega)]; simp⟩ ?_ ?_
    · intro g s _ hg ⟨sh, hcs, hp⟩
      refine Ok.forUp (P := fun i (s' : Mzd × (Nat → Tab)) => Sh C' s'.1 ∧ (∀ z < 8, CanTab B k 0 (s'.2 z)) ∧ ∀ a b, s'.1.bit a b =
          (s.1.bit a b ^^ (decide ((512 * g ≤ a ∧ a < min (512 * g + 512) A.nrows) ∧ b < B.ncols) && xsum (8 * k * i) fun l => A.bit a l && B.bit l b)))
        (Nat.zero_le _) ⟨sh, hcs, fun a b => by simp [xsum]⟩ ?_ ?_
      · intro i s' _ hi ⟨sh', hcs', hp'⟩
        refine (mulBlock_spec wA wB hAB h0 hk1 hk2 (hE1 i hi) (by omega) (sh'.wf ws) (by rw [sh'.nrows, hs1]) (by rw [sh'.ncols, hs2]) hcs').mono ?_
        intro s'' ⟨sh'', hcs'', hp''⟩
        refine ⟨sh'.trans sh'', hcs'', fun a b => ?_⟩
        rw [hp'', hp', Nat.mul_succ, xsum_add, Bool.xor_assoc]
        cases decide ((512 * g ≤ a ∧ a < min (512 * g + 512) A.nrows) ∧ b < B.ncols) <;> simp
      · intro s' ⟨sh', hcs', hp'⟩
        refine ⟨sh', hcs', fun a b => ?_⟩
        rw [hp', hp]
        by_cases h1 : a < min (512 * g) A.nrows ∧ b < B.ncols
        · rw [decide_eq_true h1, decide_eq_false (by omega), decide_eq_true (by omega)]; simp
        · rw [decide_eq_false h1]
          simp only [Bool.false_and, Bool.xor_false]
          congr 2
          rw [decide_eq_decide]
          omega
    · intro s ⟨sh, hcs, hp⟩
      refine ⟨sh, hcs, ?_⟩
      rw [show min (512 * ((A.nrows + 511) / 512)) A.nrows = A.nrows by omega] at hp
      exact hp
  intro s ⟨sh, hcs, hp⟩
  by_cases hr : A.ncols % (8 * k) ≠ 0
  · rw [if_pos hr, Nat.mul_div_cancel 8 hkpos]
    refine Ok.bind (P := fun (s : Mzd × (Nat → Tab)) => Sh C' s.1 ∧ CanTab B k 0 (s.2 0) ∧ PartAcc A B C' s.1 A.nrows (k * (A.ncols / k))) ?_ ?_
    · have hle : 8 * E ≤ A.ncols / k := by
        rw [Nat.le_div_iff_mul_le hkpos, show 8 * E * k = 8 * k * E by ring]; omega
      refine Ok.forUp (P := fun i (s : Mzd × (Nat → Tab)) => Sh C' s.1 ∧ CanTab B k 0 (s.2 0) ∧ PartAcc A B C' s.1 A.nrows (k * i)) hle
        ⟨sh, hcs 0 (by omega), by rw [show k * (8 * E) = 8 * k * E by ring]; exact hp⟩ ?_ (fun s h => h)
      intro i s _ hi ⟨sh, hcs, hp⟩
      have hik : k * i + k ≤ A.ncols := by
        have : k * (i + 1) ≤ k * (A.ncols / k) := Nat.mul_le_mul_left k hi
        rw [Nat.mul_succ] at this
        omega
      refine (mulRest_spec wA wB hAB h0 (by omega) hk2 (Nat.le_refl k) hik (sh.wf ws) (by rw [sh.nrows, hs1]) (by rw [sh.ncols, hs2]) hcs).mono ?_
      intro s' ⟨sh', hcs', hp'⟩
      refine ⟨sh.trans sh', hcs', fun a b => ?_⟩
      rw [hp', hp, Nat.mul_succ, xsum_add]
      cases decide (a < A.nrows ∧ b < B.ncols) <;> simp
    · intro s ⟨sh, hcs, hp⟩
      by_cases hr' : A.ncols % k ≠ 0
      · rw [if_pos hr', Ok.bind_iff]
        have hlt : A.ncols % k < k := Nat.mod_lt _ hkpos
        refine (mulRest_spec wA wB hAB h0 (show 1 ≤ A.ncols % k by omega) (by omega) (Nat.le_of_lt hlt) (by omega) (sh.wf ws) (by rw [sh.nrows, hs1])
          (by rw [sh.ncols, hs2]) hcs).mono ?_
        intro s' ⟨sh', hcs', hp'⟩
        rw [Ok.pure_iff]
        refine ⟨sh.trans sh', fun a b => ?_⟩
        rw [hp', hp]
        have := xsum_add (k * (A.ncols / k)) (A.ncols % k) (fun l => A.bit a l && B.bit l b)
        rw [hdm'] at this
        rw [this]
        cases decide (a < A.nrows ∧ b < B.ncols) <;> simp
      · rw [if_neg hr', Ok.pure_iff]
        refine ⟨sh, ?_⟩
        rw [show k * (A.ncols / k) = A.ncols by omega] at hp
        exact hp
  · rw [if_neg hr, Ok.pure_iff]
    refine ⟨sh, ?_⟩
    rw [show 8 * k * E = A.ncols by omega] at hp
    exact hp

theorem mul_tables (wA : A.Wf) (wB : B.Wf) (hAB : A.ncols = B.nrows) (h0 : 0 < B.ncols) {junk : Nat → Nat → Nat} {align : Bool} {k0 : Int} {C' : Mzd}
    (ws : C'.Wf) (hs1 : C'.nrows = A.nrows) (hs2 : C'.ncols = B.ncols) (hz : ∀ a b, C'.bit a b = false) :
    Ok (mul_m4rm_tables junk align.toNat k0 C' A B) fun D => Sh C' D ∧ Part A B D A.nrows A.ncols := by
  unfold mul_m4rm_tables
  refine Ok.bind (set_zero ws (by rw [hs2]; exact h0)) ?_
  intro C1 ⟨sh1, hC1⟩
  have hz1 : ∀ a b, C1.bit a b = false := fun a b => by rw [hC1, hz]; split <;> rfl
  refine (addmul_tables wA wB hAB h0 (sh1.wf ws) (by rw [sh1.nrows, hs1]) (by rw [sh1.ncols, hs2])).mono ?_
  intro D ⟨sh, hD⟩
  exact ⟨sh1.trans sh, fun a b => by rw [hD, hz1, Bool.false_xor]⟩

/-! ## The product without tables -/

theorem addmul_va (wA : A.Wf) (wB : B.Wf) (hAB : A.ncols = B.nrows) (h0 : 0 < B.ncols) {C' : Mzd}
    (ws : C'.Wf) (hs1 : C'.nrows = A.nrows) (hs2 : C'.ncols = B.ncols) :
    Ok (mzd_addmul_va C' A B) fun D => Sh C' D ∧ PartAcc A B C' D A.nrows A.ncols := by
  unfold mzd_addmul_va
  refine Ok.forUp (P := fun i D => Sh C' D ∧ PartAcc A B C' D i A.ncols) (Nat.zero_le _) ⟨Sh.refl _, fun a b => by rw [decide_eq_false (by omega)]; simp⟩ ?_ (fun D h => h)
  intro i D _ hi ⟨sh, hp⟩
  refine Ok.forUp (P := fun j D' => Sh C' D' ∧ ∀ a b, D'.bit a b = (D.bit a b ^^ (decide (a = i ∧ b < B.ncols) && xsum j fun l => A.bit a l && B.bit l b)))
    (Nat.zero_le _) ⟨sh, fun a b => by simp [xsum]⟩ ?_ ?_
  · intro j D' _ hj ⟨sh', hp'⟩
    rw [read_bit wA hi hj, C_ok_bind]
    cases hbit : A.bit i j
    · rw [if_neg (by simp), Ok.pure_iff]
      refine ⟨sh', fun a b => ?_⟩
      rw [hp', xsum]
      by_cases ha : a = i
      · rw [ha, hbit]; simp
      · rw [decide_eq_false (fun h => ha h.1)]; simp
    · rw [if_pos rfl]
      refine (combine (sh'.wf ws) wB (by rw [sh'.ncols, hs2]; exact h0) (by rw [sh'.ncols, hs2]) (by rw [sh'.nrows, hs1]; exact hi) (by rw [← hAB]; exact hj)).mono ?_
      intro N ⟨shN, hN⟩
      refine ⟨sh'.trans shN, fun a b => ?_⟩
      rw [hN, hp', xsum, sh'.ncols, hs2]
      by_cases ha : a = i
      · rw [ha, hbit]
        cases decide (i = i ∧ b < B.ncols) <;> simp
      · rw [decide_eq_false (show ¬ (a = i ∧ b < B.ncols) from fun h => ha h.1)]; simp
  · intro D' ⟨sh', hp'⟩
    refine ⟨sh', fun a b => ?_⟩
    rw [hp', hp]
    by_cases ha : a = i
    · rw [ha, decide_eq_false (show ¬ (i < i ∧ b < B.ncols) by omega), show decide (i < i + 1 ∧ b < B.ncols) = decide (i = i ∧ b < B.ncols) from
        decide_eq_decide.2 (by omega)]
      simp
    · rw [decide_eq_false (show ¬ (a = i ∧ b < B.ncols) from fun h => ha h.1), show decide (a < i + 1 ∧ b < B.ncols) = decide (a < i ∧ b < B.ncols) from
        decide_eq_decide.2 (by omega)]
      simp

theorem mul_va (wA : A.Wf) (wB : B.Wf) (hAB : A.ncols = B.nrows) (h0 : 0 < B.ncols) {C' : Mzd}
    (ws : C'.Wf) (hs1 : C'.nrows = A.nrows) (hs2 : C'.ncols = B.ncols) (hz : ∀ a b, C'.bit a b = false) :
    Ok (mzd_mul_va C' A B) fun D => Sh C' D ∧ Part A B D A.nrows A.ncols := by
  unfold mzd_mul_va
  refine Ok.bind (set_zero ws (by rw [hs2]; exact h0)) ?_
  intro C1 ⟨sh1, hC1⟩
  have hz1 : ∀ a b, C1.bit a b = false := fun a b => by rw [hC1, hz]; split <;> rfl
  refine (addmul_va wA wB hAB h0 (sh1.wf ws) (by rw [sh1.nrows, hs1]) (by rw [sh1.ncols, hs2])).mono ?_
  intro D ⟨sh, hD⟩
  exact ⟨sh1.trans sh, fun a b => by rw [hD, hz1, Bool.false_xor]⟩

end WB.m4w
