import Verif.Model.M4riTrsm
import Verif.Proof.M4riAddmul

/-!
# Systems with triangular matrices: rows that are added to other rows (helper lemmas)
-/
namespace WB.m4w

open WB.cmp (Mem Mem2)

theorem xsum_rev (n : Nat) (f : Nat → Bool) : xsum n f = xsum n fun i => f (n - 1 - i) := by
  induction n generalizing f with
  | zero => rfl
  | succ n ih =>
    have h := xsum_add 1 n f
    rw [Nat.add_comm 1 n] at h
    rw [h, ih, xsum]
    simp only [xsum, Bool.false_xor]
    rw [Bool.xor_comm]
    congr 1
    · refine xsum_congr fun i hi => ?_
      rw [show 1 + (n - 1 - i) = n + 1 - 1 - i by omega]
    · rw [show n + 1 - 1 - n = 0 by omega]

theorem xsum_range {n i k : Nat} (h : i + k ≤ n) (f : Nat → Bool) : xsum n (fun l => decide (i ≤ l ∧ l < i + k) && f l) = xsum k fun l => f (i + l) := by
  obtain ⟨d, rfl⟩ : ∃ d, n = i + k + d := ⟨n - (i + k), by omega⟩
  rw [xsum_add, xsum_add]
  rw [xsum_congr (n := i) (g := fun _ => false) fun l hl => by rw [decide_eq_false (by omega)]; rfl,
    xsum_congr (n := d) (g := fun _ => false) fun l hl => by rw [decide_eq_false (by omega)]; rfl, xsum_false, xsum_false,
    xsum_congr (n := k) (g := fun l => f (i + l)) fun l hl => by rw [decide_eq_true (by omega)]; rfl]
  simp

/-- `N` is `M` after the rows `l` with `S a l` have been added to row `a` where `L` has a one, for all rows `a`; the rows that are added have their final values. -/
structure Sol (L M N : Mzd) (n c : Nat) (S : Nat → Nat → Bool) : Prop where
  sh : Sh M N
  bit : ∀ a b, N.bit a b = (M.bit a b ^^ (decide (a < n ∧ b < c) && xsum n fun l => S a l && (L.bit a l && N.bit l b)))

variable {L M B N : Mzd} {n c : Nat} {S S' : Nat → Nat → Bool}

theorem Sol.start (h : ∀ a < n, ∀ l < n, S a l = false) : Sol L M M n c S := by
  refine ⟨Sh.refl M, fun a b => ?_⟩
  by_cases ha : a < n ∧ b < c
  · rw [xsum_congr (g := fun _ => false) fun l hl => by rw [h a ha.1 l hl]; rfl, xsum_false]
    simp
  · rw [decide_eq_false ha]
    simp

theorem Sol.congr (h : Sol L M N n c S) (hS : ∀ a < n, ∀ l < n, S' a l = S a l) : Sol L M N n c S' := by
  refine ⟨h.sh, fun a b => ?_⟩
  rw [h.bit]
  by_cases ha : a < n ∧ b < c
  · rw [xsum_congr fun l hl => by rw [← hS a ha.1 l hl]]
  · rw [decide_eq_false ha]
    simp

theorem Sol.congr' (h : Sol L M N n c S) (hS : ∀ a < n, ∀ l < n, S' a l = true ↔ S a l = true) : Sol L M N n c S' :=
  h.congr fun a ha l hl => Bool.eq_iff_iff.2 (hS a ha l hl)

theorem Sol.step {B' : Mzd} (h : Sol L M B n c S) {i : Nat} (D : Nat → Bool) (sh : Sh B B')
    (hB : ∀ a b, B'.bit a b = (B.bit a b ^^ (decide (a = i ∧ b < c) && xsum n fun l => D l && (L.bit i l && B.bit l b))))
    (hi : i < n) (hSi : ∀ a < n, S a i = false) (hDi : D i = false) (hd : ∀ l < n, S i l = true → D l = false)
    (hS' : ∀ a < n, ∀ l < n, S' a l = true ↔ S a l = true ∨ (a = i ∧ D l = true)) : Sol L M B' n c S' := by
  refine ⟨h.sh.trans sh, fun a b => ?_⟩
  have hrow : ∀ l, l ≠ i → B'.bit l b = B.bit l b := fun l hl => by rw [hB, decide_eq_false (by omega)]; simp
  by_cases hab : a < n ∧ b < c
  · have e1 : xsum n (fun l => S' a l && (L.bit a l && B'.bit l b)) = xsum n fun l => S' a l && (L.bit a l && B.bit l b) := by
      refine xsum_congr fun l hl => ?_
      by_cases hli : l = i
      · have : S' a l = false := by
          rw [hli, Bool.eq_false_iff, Ne, hS' a hab.1 i hi, hSi a hab.1, hDi]
          simp
        rw [this]
        rfl
      · rw [hrow l hli]
    rw [e1, hB, h.bit, decide_eq_true hab, Bool.true_and, Bool.true_and]
    by_cases ha : a = i
    · subst ha
      rw [decide_eq_true ⟨rfl, hab.2⟩, Bool.true_and, Bool.xor_assoc, ← xsum_xor]
      congr 1
      refine xsum_congr fun l hl => ?_
      have h1 := hS' a hab.1 l hl
      have h2 := hd l hl
      revert h1 h2
      cases S a l <;> cases D l <;> cases S' a l <;> simp
    · rw [decide_eq_false (fun h => ha h.1), Bool.false_and, Bool.xor_false]
      congr 1
      refine xsum_congr fun l hl => ?_
      have h1 := hS' a hab.1 l hl
      revert h1
      cases S a l <;> cases S' a l <;> simp [ha]
  · rw [hB, h.bit, decide_eq_false hab, decide_eq_false (show ¬ (a = i ∧ b < c) by omega)]
    simp

theorem xorRow_spec (w : M.Wf) (h0 : 0 < M.ncols) {i k : Nat} (hi : i < M.nrows) (hk : k < M.nrows) (hik : i ≠ k) :
    Ok (xorRow M i k M.high) fun N => Sh M N ∧ ∀ a b, N.bit a b = (M.bit a b ^^ (decide (a = i ∧ b < M.ncols) && M.bit k b)) := by
  unfold xorRow
  have hw := width_pos h0
  rw [if_neg (by omega)]
  refine Ok.bind (row_loop (fun j => M.word i j ^^^ M.word k j) w hi (by omega) ?_) ?_
  · intro j N _ hj sh hN
    rw [get_eq ((sh.wf w).at (by rw [sh.nrows]; exact hi) (by rw [sh.width]; omega)), C_ok_bind, get_eq ((sh.wf w).at (by rw [sh.nrows]; exact hk) (by rw [sh.width]; omega)), C_ok_bind,
      hN, if_neg (by omega), hN, if_neg (by omega)]
  intro D ⟨sh, hD⟩
  have hat := (sh.wf w).at (i := i) (j := M.width - 1) (by rw [sh.nrows]; omega) (by rw [sh.width]; omega)
  have hat' := (sh.wf w).at (i := k) (j := M.width - 1) (by rw [sh.nrows]; omega) (by rw [sh.width]; omega)
  rw [sh.width, get_eq hat, C_ok_bind, get_eq hat', C_ok_bind, put_eq _ hat, Ok.ok_iff]
  refine ⟨sh.trans (Sh.set _ _ _ _), fun a b => ?_⟩
  rw [bit_set, bit_of_word hD, hD, if_neg (show ¬ (i = i ∧ 0 ≤ M.width - 1 ∧ M.width - 1 < M.width - 1) by omega), hD,
    if_neg (show ¬ (k = i ∧ 0 ≤ M.width - 1 ∧ M.width - 1 < M.width - 1) by omega)]
  by_cases ha : a = i
  · subst ha
    rcases Nat.lt_trichotomy (b / 64) (M.width - 1) with hb | hb | hb
    · rw [if_neg (by omega), if_pos ⟨rfl, by omega, hb⟩, decide_eq_true ⟨rfl, lt_of_not_last hb⟩, BitVec.getLsbD_xor]
      rfl
    · rw [if_pos ⟨rfl, hb⟩, BitVec.getLsbD_xor, BitVec.getLsbD_and, high_bit M hb h0]
      have e1 : (M.word a (M.width - 1)).getLsbD (b % 64) = M.bit a b := by unfold Mzd.bit; rw [hb]
      have e2 : (M.word k (M.width - 1)).getLsbD (b % 64) = M.bit k b := by unfold Mzd.bit; rw [hb]
      rw [e1, e2]
      simp [Bool.and_comm]
    · rw [if_neg (by omega), if_neg (by omega), decide_eq_false (fun h => by have := lt_width h.2; omega)]
      simp
  · rw [if_neg (fun h => ha h.1), if_neg (fun h => ha h.1), decide_eq_false (fun h => ha h.1)]
    simp

/-- One row is added to another one, or not. -/
theorem Sol.one (h : Sol L M B n c S) (wM : M.Wf) (hr : M.nrows = n) (hc : M.ncols = c) (h0 : 0 < c) {i k : Nat} (hi : i < n) (hk : k < n) (hik : i ≠ k)
    (hSi : ∀ a < n, S a i = false) (hSk : S i k = false) (hS' : ∀ a < n, ∀ l < n, S' a l = true ↔ S a l = true ∨ (a = i ∧ l = k)) :
    Ok (if L.bit i k = true then xorRow B i k B.high else pure B) fun N => Sol L M N n c S' := by
  have key : ∀ N, Sh B N → (∀ a b, N.bit a b = (B.bit a b ^^ (decide (a = i ∧ b < c) && (L.bit i k && B.bit k b)))) → Sol L M N n c S' := fun N sh hN =>
    h.step (fun l => decide (l = k)) sh (fun a b => by rw [hN, xsum_one hk fun l => L.bit i l && B.bit l b]) hi hSi (decide_eq_false hik) (fun l _ hl => by
      rw [decide_eq_false_iff_not]
      intro e
      rw [e, hSk] at hl
      cases hl) (fun a ha l hl => by rw [hS' a ha l hl, decide_eq_true_eq])
  split
  · rename_i hb
    refine (xorRow_spec (h.sh.wf wM) (by rw [h.sh.ncols, hc]; exact h0) (by rw [h.sh.nrows, hr]; exact hi) (by rw [h.sh.nrows, hr]; exact hk) hik).mono fun N ⟨sh, hN⟩ => key N sh ?_
    intro a b
    rw [hN, h.sh.ncols, hc, hb, Bool.true_and]
  · rename_i hb
    rw [Ok.pure_iff]
    refine key B (Sh.refl B) fun a b => ?_
    rw [Bool.eq_false_iff.2 hb]
    simp

theorem getBit0_spec (w : L.Wf) {i k : Nat} (hi : i < L.nrows) (hk : k < 64) (hk' : k < L.ncols) : getBit0 L i k = .ok (L.bit i k) := by
  unfold getBit0
  rw [get_eq (w.at hi (by unfold Mzd.width; omega))]
  show Except.ok _ = _
  rw [and_one_ne]
  unfold Mzd.bit
  rw [show k / 64 = 0 by omega, show k % 64 = k by omega]

/-! ## From the left, lower -/

theorem lowerLeftBase_spec (wL : L.Wf) (lr : L.nrows = n) (lc : L.ncols = n) (wM : M.Wf) (hr : M.nrows = n) (hc : M.ncols = c) (h0 : 0 < c) (hn : n ≤ 64) :
    Ok (lowerLeftBase L M) fun N => Sol L M N n c fun a l => decide (l < a) := by
  unfold lowerLeftBase
  rw [hr]
  by_cases h1 : 1 ≤ n
  · refine Ok.forUp (P := fun i N => Sol L M N n c fun a l => decide (l < a ∧ a < i)) h1 (Sol.start fun a _ l _ => decide_eq_false (by omega)) ?_
      fun N h => h.congr' fun a ha l hl => by simp only [decide_eq_true_eq]; omega
    intro i B _ hi h
    refine Ok.forUp (P := fun k N => Sol L M N n c fun a l => decide (l < a ∧ (a < i ∨ a = i ∧ l < k))) (Nat.zero_le _)
      (h.congr' fun a ha l hl => by simp only [decide_eq_true_eq]; omega) ?_ fun N h => h.congr' fun a ha l hl => by simp only [decide_eq_true_eq]; omega
    intro k B _ hk h
    rw [getBit0_spec wL (by omega) (by omega) (by omega), C_ok_bind]
    refine h.one wM hr hc h0 hi (by omega) (by omega) (fun a ha => decide_eq_false (by omega)) (decide_eq_false (by omega)) ?_
    intro a ha l hl
    simp only [decide_eq_true_eq]
    omega
  · have : forUp 1 n M (fun i B => forUp 0 i B fun k B => do
      if ← getBit0 L i k then xorRow B i k (leftMask (B.ncols % 64)) else pure B) = pure M := by
      unfold forUp
      rw [show n - 1 = 0 by omega]
      rfl
    rw [this, Ok.pure_iff]
    exact Sol.start fun a ha => by omega

theorem lowerLeftSub_spec (wL : L.Wf) (lr : L.nrows = n) (lc : L.ncols = n) (wM : M.Wf) (hr : M.nrows = n) (hc : M.ncols = c) (h0 : 0 < c) {start k : Nat} (hk : start + k ≤ n)
    (h : Sol L M B n c fun a l => decide (l < a ∧ l < start)) :
    Ok (lowerLeftSub L B start k B.high) fun N => Sol L M N n c fun a l => decide (l < a ∧ (l < start ∨ a < start + k)) := by
  unfold lowerLeftSub
  have hB : B.ncols = c := by rw [h.sh.ncols, hc]
  refine Ok.forUp (P := fun i N => Sol L M N n c fun a l => decide (l < a ∧ (l < start ∨ a < start + i))) (Nat.zero_le _)
    (h.congr' fun a ha l hl => by simp only [decide_eq_true_eq]; omega) ?_ fun N h => h
  intro i N _ hi h
  refine Ok.forUp (P := fun j N => Sol L M N n c fun a l => decide (l < a ∧ (l < start ∨ a < start + i ∨ a = start + i ∧ l < start + j))) (Nat.zero_le _)
    (h.congr' fun a ha l hl => by simp only [decide_eq_true_eq]; omega) ?_ fun N h => h.congr' fun a ha l hl => by simp only [decide_eq_true_eq]; omega
  intro j N _ hj h
  rw [read_bit wL (by omega) (by omega), C_ok_bind]
  have e : B.high = N.high := by unfold Mzd.high; rw [h.sh.ncols, hc, hB]
  rw [e]
  refine h.one wM hr hc h0 (by omega) (by omega) (by omega) (fun a ha => decide_eq_false (by omega)) (decide_eq_false (by omega)) ?_
  intro a ha l hl
  simp only [decide_eq_true_eq]
  omega

/-! ## Tables -/

theorem CanTab.sh {M N : Mzd} {k b : Nat} {t : Tab} (h : CanTab M k b t) (sh : Sh M N) : CanTab N k b t :=
  ⟨h.wf, by rw [sh.width]; exact h.width, h.rows, h.size, fun j h1 h2 => h.zero j h1 (by rw [← sh.width]; exact h2)⟩

theorem trsmTables_can {B : Mzd} {align : Bool} {k : Nat} (z : Nat) : CanTab B k 0 (trsmTables align.toNat k B.ncols z) := by
  have hal : align.toNat ≤ 1 := by cases align <;> simp
  unfold trsmTables mulTables mzd_init_window mzd_init
  refine ⟨⟨Nat.le_refl _, ?_⟩, ?_, Nat.le_refl _, Nat.le_refl _, fun j _ _ => ?_⟩
  · unfold Mzd.width
    simp only []
    generalize align.toNat = q at hal ⊢
    omega
  · unfold Mzd.width
    simp only []
    generalize align.toNat = q at hal ⊢
    rw [Nat.add_sub_cancel]
  · unfold Mzd.bit Mzd.word
    simp

/-- Rows of tables are added to row `j`. -/
theorem tabs_row {Bt C' : Mzd} {m k : Nat} {T : Nat → Tab} {r x : Nat → Nat} (h1 : ∀ z < m, CanTab Bt k 0 (T z)) (h2 : ∀ z < m, IsTab Bt (r z) 0 k (T z)) (sh : Sh Bt C')
    (w : C'.Wf) {j : Nat} (hj : j < C'.nrows) (hx : ∀ z < m, x z < 2 ^ k) :
    Ok (mzd_combine_n C' j 0 C'.width ((List.range m).map fun z => ((T z).T, (T z).L.cell (x z)))) fun N => Sh C' N ∧ ∀ a b, N.bit a b =
      (C'.bit a b ^^ (decide (a = j ∧ b < C'.ncols) && xsum m fun z => xsum k fun l => (x z).testBit l && Bt.bit (r z + l) b)) := by
  refine (combine_n w hj (by omega) _ ?_).mono ?_
  · intro p hp
    obtain ⟨z, hz, rfl⟩ := List.mem_map.1 hp
    have hz := List.mem_range.1 hz
    exact ⟨(h1 z hz).wf, Nat.lt_of_lt_of_le ((h2 z hz).lt _ (hx z hz)) (h1 z hz).rows, by rw [sh.width]; exact (h1 z hz).width⟩
  · intro N ⟨shN, hN⟩
    refine ⟨shN, fun a b => ?_⟩
    rw [hN, rowsum_range, Nat.zero_add]
    congr 1
    by_cases ha : a = j
    · by_cases hb : b / 64 < C'.width
      · rw [decide_eq_true (show a = j ∧ 0 ≤ b / 64 ∧ b / 64 < C'.width from ⟨ha, Nat.zero_le _, hb⟩), Bool.true_and]
        rw [xsum_congr fun z hz => (h2 z hz).row _ (hx z hz) b (by omega) (by rw [← sh.width]; exact hb), xsum_and, ← sh.ncols]
        congr 1
        rw [decide_eq_decide]
        omega
      · rw [decide_eq_false (fun h => hb h.2.2), decide_eq_false (fun h => hb (lt_width h.2))]
        rfl
    · rw [decide_eq_false (fun h => ha h.1), decide_eq_false (fun h => ha h.1)]
      rfl

/-- Eight tables of `k` rows each. -/
theorem make_tables {Bt : Mzd} (w : Bt.Wf) (h0 : 0 < Bt.ncols) {k : Nat} (hk : k ≤ 16) {r : Nat → Nat} (hr : ∀ z < 8, r z + k ≤ Bt.nrows) {T : Nat → Tab} (hT : ∀ z < 8, CanTab Bt k 0 (T z)) :
    Ok (forDown 8 0 T fun z T => do
      let t ← mzd_make_table Bt (r z) 0 k (T z)
      pure (Function.update T z t)) fun T => (∀ z < 8, CanTab Bt k 0 (T z)) ∧ ∀ z < 8, IsTab Bt (r z) 0 k (T z) := by
  refine Ok.forDown (P := fun y T => (∀ z < 8, CanTab Bt k 0 (T z)) ∧ ∀ z < 8, y ≤ z → IsTab Bt (r z) 0 k (T z)) (Nat.zero_le _)
    ⟨hT, fun z hz h8 => absurd hz (by omega)⟩ ?_ (fun T h => ⟨h.1, fun z hz => h.2 z hz (Nat.zero_le _)⟩)
  intro z T _ hz ⟨h1, h2⟩
  refine Ok.bind (make_table w (h1 z hz) (Nat.zero_le _) hk (hr z hz) h0) ?_
  intro t ⟨h3, h4⟩
  rw [Ok.pure_iff]
  refine ⟨fun y hy => ?_, fun y hy hzy => ?_⟩
  · by_cases hyz : y = z
    · subst hyz; rw [Function.update_self]; exact h4 k (h1 y hy)
    · rw [Function.update_of_ne hyz]; exact h1 y hy
  · by_cases hyz : y = z
    · subst hyz; rw [Function.update_self]; exact h3
    · rw [Function.update_of_ne hyz]; exact h2 y hy (by omega)

theorem leftMask_small : ∀ k ≤ 16, 1 ≤ k → leftMask k = 1#64 <<< k - 1#64 := by decide +kernel

/-- The rows from `s` to `s + w - 1` are added to row `j` where `L` has ones; `Bt` has the same values in these rows. -/
theorem Sol.rows {Bt C' : Mzd} (h : Sol L M C' n c S) {s w j : Nat} (hC : ∀ l, s ≤ l → l < s + w → ∀ b, C'.bit l b = Bt.bit l b) (sh : Sh C' N) (hN : ∀ a b, N.bit a b =
      (C'.bit a b ^^ (decide (a = j ∧ b < c) && xsum w fun l => L.bit j (s + l) && Bt.bit (s + l) b))) (hw : s + w ≤ n) (hj : j < n) (hjs : j < s ∨ s + w ≤ j)
    (hSj : ∀ a < n, S a j = false) (hd : ∀ l, s ≤ l → l < s + w → S j l = false) (hS' : ∀ a < n, ∀ l < n, S' a l = true ↔ S a l = true ∨ (a = j ∧ s ≤ l ∧ l < s + w)) :
    Sol L M N n c S' := by
  refine h.step (fun l => decide (s ≤ l ∧ l < s + w)) sh (fun a b => ?_) hj hSj (decide_eq_false (by omega)) (fun l _ hl => ?_) (fun a ha l hl => by rw [hS' a ha l hl, decide_eq_true_eq])
  · rw [hN, xsum_range hw fun l => L.bit j l && C'.bit l b]
    congr 2
    exact xsum_congr fun l hl => by rw [hC (s + l) (by omega) (by omega)]
  · rw [decide_eq_false_iff_not]
    intro ⟨h1, h2⟩
    rw [hd l h1 h2] at hl
    cases hl

theorem digits_sum {f : Nat → Bool} {v : Word} {k s j : Nat} (hk : k ≤ 16) (hv : ∀ b, v.getLsbD b = (decide (b < 8 * k) && L.bit j (s + b))) :
    (xsum 8 fun z => xsum k fun l => (((v >>> (z * k)) &&& (1#64 <<< k - 1#64)).toNat).testBit l && f (s + z * k + l)) = xsum (8 * k) fun l => L.bit j (s + l) && f (s + l) := by
  rw [xsum_mul 8 k]
  refine xsum_congr fun z hz => xsum_congr fun l hl => ?_
  have hz' : z * k + k ≤ 8 * k := by
    have : z * k ≤ 7 * k := Nat.mul_le_mul_right k (by omega)
    omega
  rw [digit_bit hk, decide_eq_true hl, hv, decide_eq_true (show z * k + l < 8 * k by omega), Nat.add_assoc s]
  simp

theorem lowerLeftBlock_spec (wL : L.Wf) (lr : L.nrows = n) (lc : L.ncols = n) (wM : M.Wf) (hr : M.nrows = n) (hc : M.ncols = c) (h0 : 0 < c) {i k : Nat} (hk1 : 2 ≤ k) (hk2 : k ≤ 8)
    (hi : i + 8 * k ≤ n) {s : Mzd × (Nat → Tab)} (h : Sol L M s.1 n c fun a l => decide (l < a ∧ l < i)) (hT : ∀ z < 8, CanTab M k 0 (s.2 z)) :
    Ok (lowerLeftBlock L k i s) fun s' => Sol L M s'.1 n c (fun a l => decide (l < a ∧ l < i + 8 * k)) ∧ ∀ z < 8, CanTab M k 0 (s'.2 z) := by
  unfold lowerLeftBlock
  simp only []
  refine Ok.bind (lowerLeftSub_spec wL lr lc wM hr hc h0 hi h) fun Bt h1 => ?_
  have wB := h1.sh.wf wM
  have nB : Bt.nrows = n := by rw [h1.sh.nrows, hr]
  have cB : Bt.ncols = c := by rw [h1.sh.ncols, hc]
  refine Ok.bind (make_tables wB (by omega) (by omega) (r := fun z => i + z * k) (fun z hz => ?_) fun z hz => (hT z hz).sh h1.sh) fun T ⟨hT1, hT2⟩ => ?_
  · have : z * k ≤ 7 * k := Nat.mul_le_mul_right k (by omega)
    omega
  rw [Ok.bind_iff, nB]
  refine Ok.forUp (P := fun j C' => Sol L M C' n c (fun a l => decide (l < a ∧ (l < i ∨ a < i + 8 * k ∨ l < i + 8 * k ∧ a < j))) ∧ ∀ a < i + 8 * k, ∀ b, C'.bit a b = Bt.bit a b) hi
    ⟨h1.congr' fun a ha l hl => by simp only [decide_eq_true_eq]; omega, fun _ _ _ => rfl⟩ ?_ ?_
  · intro j C' hj1 hj2 ⟨hs, hC⟩
    have nC : C'.nrows = n := by rw [hs.sh.nrows, hr]
    have cC : C'.ncols = c := by rw [hs.sh.ncols, hc]
    have shC : Sh Bt C' := by
      refine ⟨by rw [nC, nB], by rw [cC, cB], by rw [hs.sh.off, h1.sh.off], by rw [hs.sh.rows, h1.sh.rows], by rw [hs.sh.cols, h1.sh.cols], fun a b hb => ?_⟩
      have hb' : b < M.off := by rw [← h1.sh.off]; exact hb
      rw [hs.sh.before a b hb', h1.sh.before a b hb']
    refine Ok.bind (read_bits wL (show j < L.nrows by omega) (show 0 < 8 * k by omega) (by omega) (by unfold Mzd.width; omega)) fun v hv => ?_
    rw [leftMask_small k (by omega) (by omega)]
    have hmap := mapM_range (n := 8) (g := fun z => do pure ((T z).T, ← (T z).L.get ((v >>> (z * k)) &&& (1#64 <<< k - 1#64)).toNat))
      (h := fun z => ((T z).T, (T z).L.cell ((v >>> (z * k)) &&& (1#64 <<< k - 1#64)).toNat)) (fun z hz => by
        rw [Mem.get_eq (Nat.lt_of_lt_of_le (digit_lt (by omega)) (hT2 z hz).size)]; rfl)
    rw [hmap, C_ok_bind]
    refine (tabs_row (x := fun z => ((v >>> (z * k)) &&& (1#64 <<< k - 1#64)).toNat) hT1 hT2 shC (hs.sh.wf wM) (by omega) fun z _ => digit_lt (by omega)).mono fun N ⟨shN, hN⟩ => ?_
    refine ⟨hs.rows (s := i) (w := 8 * k) (j := j) (fun l _ hl b => hC l hl b) shN (fun a b => ?_) hi hj2 (Or.inr hj1) (fun a ha => decide_eq_false (by omega))
      (fun l h1 h2 => decide_eq_false (by omega)) (fun a ha l hl => by simp only [decide_eq_true_eq]; omega), fun a ha b => ?_⟩
    · rw [hN, cC]
      congr 2
      exact digits_sum (f := fun m => Bt.bit m b) (by omega) hv
    · rw [hN, decide_eq_false (by omega), Bool.false_and, Bool.xor_false, hC a ha]
  · intro C' ⟨hs, _⟩
    rw [Ok.pure_iff]
    refine ⟨hs.congr' fun a ha l hl => by simp only [decide_eq_true_eq]; omega, fun z hz => ?_⟩
    have := hT1 z hz
    exact ⟨this.wf, by rw [this.width, h1.sh.width], this.rows, this.size, fun j h1' h2 => this.zero j h1' (by rw [h1.sh.width]; exact h2)⟩

theorem CanTab.back {M N : Mzd} {k b : Nat} {t : Tab} (h : CanTab N k b t) (sh : Sh M N) : CanTab M k b t :=
  ⟨h.wf, by rw [h.width, sh.width], h.rows, h.size, fun j h1 h2 => h.zero j h1 (by rw [sh.width]; exact h2)⟩

theorem CanTab.le {M : Mzd} {k k' b : Nat} {t : Tab} (h : CanTab M k' b t) (hk : k ≤ k') : CanTab M k b t :=
  have hp : 2 ^ k ≤ 2 ^ k' := Nat.pow_le_pow_right (by omega) hk
  ⟨h.wf, h.width, Nat.le_trans hp h.rows, Nat.le_trans hp h.size, h.zero⟩

theorem Sh.of_both {M N P : Mzd} (h : Sh M N) (h' : Sh M P) : Sh N P := by
  refine ⟨by rw [h.nrows, h'.nrows], by rw [h.ncols, h'.ncols], by rw [h.off, h'.off], by rw [h.rows, h'.rows], by rw [h.cols, h'.cols], fun a b hb => ?_⟩
  have hb' : b < M.off := by rw [← h.off]; exact hb
  rw [h.before a b hb', h'.before a b hb']

theorem lowerLeftRest_spec (wL : L.Wf) (lr : L.nrows = n) (lc : L.ncols = n) (wM : M.Wf) (hr : M.nrows = n) (hc : M.ncols = c) (h0 : 0 < c) {i k k' : Nat} (hk1 : 1 ≤ k) (hk2 : k ≤ k')
    (hk3 : k' ≤ 8) (hi : i + k ≤ n) {s : Mzd × (Nat → Tab)} (h : Sol L M s.1 n c fun a l => decide (l < a ∧ l < i)) (hT : CanTab M k' 0 (s.2 0)) :
    Ok (lowerLeftRest L k i s) fun s' => Sol L M s'.1 n c (fun a l => decide (l < a ∧ l < i + k)) ∧ CanTab M k' 0 (s'.2 0) := by
  unfold lowerLeftRest
  refine Ok.bind (lowerLeftSub_spec wL lr lc wM hr hc h0 hi h) fun Bt h1 => ?_
  have wB := h1.sh.wf wM
  have nB : Bt.nrows = n := by rw [h1.sh.nrows, hr]
  have cB : Bt.ncols = c := by rw [h1.sh.ncols, hc]
  have hT' := hT.sh h1.sh
  refine Ok.bind (make_table wB (hT'.le hk2) (Nat.zero_le _) (by omega) (by omega) (by omega)) fun t ⟨hT1, hT2⟩ => ?_
  rw [Ok.bind_iff, lr]
  refine Ok.forUp (P := fun j C' => Sol L M C' n c (fun a l => decide (l < a ∧ (l < i ∨ a < i + k ∨ l < i + k ∧ a < j))) ∧ ∀ a < i + k, ∀ b, C'.bit a b = Bt.bit a b) hi
    ⟨h1.congr' fun a ha l hl => by simp only [decide_eq_true_eq]; omega, fun _ _ _ => rfl⟩ ?_ ?_
  · intro j C' hj1 hj2 ⟨hs, hC⟩
    have nC : C'.nrows = n := by rw [hs.sh.nrows, hr]
    have cC : C'.ncols = c := by rw [hs.sh.ncols, hc]
    refine Ok.bind (read_bits wL (show j < L.nrows by omega) (show 0 < k by omega) (by omega) (by unfold Mzd.width; omega)) fun v hv => ?_
    have hab : ∀ l, v.toNat.testBit l = (decide (l < k) && L.bit j (i + l)) := fun l => by rw [BitVec.testBit_toNat, hv]
    have hlt : v.toNat < 2 ^ k := lt_pow_of_testBit fun b hb => by rw [hab, decide_eq_false (by omega)]; rfl
    rw [Mem.get_eq (Nat.lt_of_lt_of_le hlt hT1.size), C_ok_bind]
    refine (tabs_row (m := 1) (T := fun _ => t) (r := fun _ => i) (x := fun _ => v.toNat) (fun _ _ => hT2 k (hT'.le hk2)) (fun _ _ => hT1) (h1.sh.of_both hs.sh) (hs.sh.wf wM) (by omega) fun _ _ => hlt).mono fun N ⟨shN, hN⟩ => ?_
    refine ⟨hs.rows (s := i) (w := k) (j := j) (fun l _ hl b => hC l hl b) shN (fun a b => ?_) hi hj2 (Or.inr hj1) (fun a ha => decide_eq_false (by omega))
      (fun l h1 h2 => decide_eq_false (by omega)) (fun a ha l hl => by simp only [decide_eq_true_eq]; omega), fun a ha b => ?_⟩
    · rw [hN, cC]
      congr 2
      simp only [xsum, Bool.false_xor]
      exact xsum_congr fun l hl => by rw [hab, decide_eq_true hl, Bool.true_and]
    · rw [hN, decide_eq_false (by omega), Bool.false_and, Bool.xor_false, hC a ha]
  · intro C' ⟨hs, _⟩
    rw [Ok.pure_iff]
    refine ⟨hs.congr' fun a ha l hl => by simp only [decide_eq_true_eq]; omega, ?_⟩
    show CanTab M k' 0 (Function.update s.2 0 t 0)
    rw [Function.update_self]
    exact (hT2 k' hT').back h1.sh

theorem lower_left_russian (wL : L.Wf) (lr : L.nrows = n) (lc : L.ncols = n) (wM : M.Wf) (hr : M.nrows = n) (hc : M.ncols = c) (h0 : 0 < c) (hn : 0 < n) (align : Bool) (k0 : Int) :
    Ok (_mzd_trsm_lower_left_russian align k0 L M) fun N => Sol L M N n c fun a l => decide (l < a) := by
  unfold _mzd_trsm_lower_left_russian
  simp only []
  obtain ⟨hk1, hk2⟩ := clampK_range k0
  generalize clampK k0 = k at hk1 hk2
  rw [hr]
  have hq1 : 8 * k * ((n - 1) / (8 * k)) ≤ n - 1 := Nat.mul_div_le _ _
  generalize hq : (n - 1) / (8 * k) = q at hq1
  refine Ok.bind (P := fun s => Sol L M s.1 n c (fun a l => decide (l < a ∧ l < 8 * k * q)) ∧ ∀ z < 8, CanTab M k 0 (s.2 z)) ?_ ?_
  · refine Ok.forUp (P := fun t s => Sol L M s.1 n c (fun a l => decide (l < a ∧ l < 8 * k * t)) ∧ ∀ z < 8, CanTab M k 0 (s.2 z)) (Nat.zero_le _)
      ⟨Sol.start fun a _ l _ => decide_eq_false (by rw [Nat.mul_zero]; omega), fun z _ => trsmTables_can z⟩ ?_ fun s h => h
    intro t s _ ht ⟨hs, hT⟩
    have h1 : 8 * k * (t + 1) ≤ 8 * k * q := Nat.mul_le_mul_left _ ht
    rw [Nat.mul_succ] at h1
    refine (lowerLeftBlock_spec wL lr lc wM hr hc h0 hk1 hk2 (by omega) hs hT).mono fun s' ⟨h2, h3⟩ => ⟨h2.congr' fun a ha l hl => ?_, h3⟩
    rw [Nat.mul_succ]
  intro s ⟨hs, hT⟩
  generalize hi0 : 8 * k * q = i0 at hs hq1
  have hm : ∀ t, t < (n - i0 + k - 1) / k → i0 + k * t < n := by
    intro t ht
    have := (Nat.le_div_iff_mul_le (by omega)).1 (show t + 1 ≤ (n - i0 + k - 1) / k by omega)
    rw [Nat.succ_mul, Nat.mul_comm] at this
    omega
  have hend : n ≤ i0 + k * ((n - i0 + k - 1) / k) := by
    have := Nat.lt_mul_div_succ (n - i0 + k - 1) (show 0 < k by omega)
    rw [Nat.mul_succ] at this
    omega
  rw [Ok.bind_iff]
  refine Ok.forUp (P := fun t s => Sol L M s.1 n c (fun a l => decide (l < a ∧ l < i0 + k * t)) ∧ CanTab M k 0 (s.2 0)) (Nat.zero_le _)
    ⟨hs.congr' fun a ha l hl => by simp only [decide_eq_true_eq, Nat.mul_zero]; omega, hT 0 (by omega)⟩ ?_ ?_
  · intro t s _ ht ⟨hs, hT⟩
    have h1 := hm t ht
    refine (lowerLeftRest_spec wL lr lc wM hr hc h0 (by omega) (Nat.min_le_left _ _) (by omega) (by omega) hs hT).mono fun s' ⟨h2, h3⟩ => ⟨h2.congr' fun a ha l hl => ?_, h3⟩
    rw [Nat.mul_succ]
    simp only [decide_eq_true_eq]
    omega
  · intro s ⟨hs, _⟩
    rw [Ok.pure_iff]
    exact hs.congr' fun a ha l hl => by simp only [decide_eq_true_eq]; omega

/-! ## From the left, upper -/

theorem upperLeftBase_spec (wL : L.Wf) (lr : L.nrows = n) (lc : L.ncols = n) (wM : M.Wf) (hr : M.nrows = n) (hc : M.ncols = c) (h0 : 0 < c) (hn : n ≤ 64) :
    Ok (upperLeftBase L M) fun N => Sol L M N n c fun a l => decide (a < l) := by
  unfold upperLeftBase
  rw [hr]
  refine Ok.forDown (P := fun i N => Sol L M N n c fun a l => decide (a < l ∧ i ≤ a)) (Nat.zero_le _) (Sol.start fun a _ l _ => decide_eq_false (by omega)) ?_
    fun N h => h.congr' fun a ha l hl => by simp only [decide_eq_true_eq]; omega
  intro i B _ hi h
  have hnr : B.nrows = n := by rw [h.sh.nrows, hr]
  rw [hnr]
  refine Ok.forUp (P := fun k N => Sol L M N n c fun a l => decide (a < l ∧ (i + 1 ≤ a ∨ a = i ∧ l < k)) ) (by omega)
    (h.congr' fun a ha l hl => by simp only [decide_eq_true_eq]; omega) ?_ fun N h => h.congr' fun a ha l hl => by simp only [decide_eq_true_eq]; omega
  · intro k B hk hk' h
    rw [getBit0_spec wL (by omega) (by omega) (by omega), C_ok_bind]
    refine h.one wM hr hc h0 (by omega) (by omega) (by omega) (fun a ha => decide_eq_false (by omega)) (decide_eq_false (by omega)) ?_
    intro a ha l hl
    simp only [decide_eq_true_eq]
    omega

theorem upperLeftSub_spec (wL : L.Wf) (lr : L.nrows = n) (lc : L.ncols = n) (wM : M.Wf) (hr : M.nrows = n) (hc : M.ncols = c) (h0 : 0 < c) {start k : Nat} (hk : start + k ≤ n)
    (h : Sol L M B n c fun a l => decide (a < l ∧ start + k ≤ l)) :
    Ok (upperLeftSub L B start k (leftMask (B.ncols % 64))) fun N => Sol L M N n c fun a l => decide (a < l ∧ (start + k ≤ l ∨ start ≤ a)) := by
  unfold upperLeftSub
  have hB : B.ncols = c := by rw [h.sh.ncols, hc]
  refine Ok.forUp (P := fun i N => Sol L M N n c fun a l => decide (a < l ∧ (start + k ≤ l ∨ start + k - i ≤ a))) (Nat.zero_le _)
    (h.congr' fun a ha l hl => by simp only [decide_eq_true_eq]; omega) ?_ fun N h => h.congr' fun a ha l hl => by simp only [decide_eq_true_eq]; omega
  intro i N _ hi h
  refine Ok.forUp (P := fun j N => Sol L M N n c fun a l => decide (a < l ∧ (start + k ≤ l ∨ start + k - i ≤ a ∨ a = start + (k - i - 1) ∧ l < start + (k - i) + j))) (Nat.zero_le _)
    (h.congr' fun a ha l hl => by simp only [decide_eq_true_eq]; omega) ?_ fun N h => h.congr' fun a ha l hl => by simp only [decide_eq_true_eq]; omega
  intro j N _ hj h
  rw [read_bit wL (by omega) (by omega), C_ok_bind]
  have e : leftMask (B.ncols % 64) = N.high := by unfold Mzd.high; rw [h.sh.ncols, hc, hB]
  rw [e]
  refine h.one wM hr hc h0 (by omega) (by omega) (by omega) (fun a ha => decide_eq_false (by omega)) (decide_eq_false (by omega)) ?_
  intro a ha l hl
  simp only [decide_eq_true_eq]
  omega

theorem upperLeftBlock_spec (wL : L.Wf) (lr : L.nrows = n) (lc : L.ncols = n) (wM : M.Wf) (hr : M.nrows = n) (hc : M.ncols = c) (h0 : 0 < c) {i k : Nat} (hk1 : 2 ≤ k) (hk2 : k ≤ 8)
    (hi : i + 8 * k ≤ n) {s : Mzd × (Nat → Tab)} (h : Sol L M s.1 n c fun a l => decide (a < l ∧ n - i ≤ l)) (hT : ∀ z < 8, CanTab M k 0 (s.2 z)) :
    Ok (upperLeftBlock L k i s) fun s' => Sol L M s'.1 n c (fun a l => decide (a < l ∧ n - i - 8 * k ≤ l)) ∧ ∀ z < 8, CanTab M k 0 (s'.2 z) := by
  unfold upperLeftBlock
  simp only []
  have ns : s.1.nrows = n := by rw [h.sh.nrows, hr]
  rw [ns]
  generalize hst : n - i - 8 * k = st
  refine Ok.bind (upperLeftSub_spec wL lr lc wM hr hc h0 (start := st) (k := 8 * k) (by omega) (h.congr' fun a ha l hl => by simp only [decide_eq_true_eq]; omega)) fun Bt h1 => ?_
  have wB := h1.sh.wf wM
  have nB : Bt.nrows = n := by rw [h1.sh.nrows, hr]
  have cB : Bt.ncols = c := by rw [h1.sh.ncols, hc]
  rw [nB]
  have hz : ∀ z < 8, n - i - (z + 1) * k = st + (7 - z) * k ∧ (7 - z) * k + k ≤ 8 * k := by
    intro z hz
    have e : (7 - z) * k + (z + 1) * k = 8 * k := by rw [← Nat.add_mul, show 7 - z + (z + 1) = 8 by omega]
    have : (7 - z) * k ≤ 7 * k := Nat.mul_le_mul_right k (by omega)
    omega
  refine Ok.bind (make_tables wB (by omega) (by omega) (r := fun z => n - i - (z + 1) * k) (fun z hz' => ?_) fun z hz => (hT z hz).sh h1.sh) fun T ⟨hT1, hT2⟩ => ?_
  · have := hz z hz'
    omega
  rw [Ok.bind_iff]
  rw [hst]
  refine Ok.forUp (P := fun j C' => Sol L M C' n c (fun a l => decide (a < l ∧ (st + 8 * k ≤ l ∨ st ≤ a ∨ st ≤ l ∧ a < j))) ∧ ∀ a, st ≤ a → ∀ b, C'.bit a b = Bt.bit a b) (Nat.zero_le _)
    ⟨h1.congr' fun a ha l hl => by simp only [decide_eq_true_eq]; omega, fun _ _ _ => rfl⟩ ?_ ?_
  · intro j C' _ hj2 ⟨hs, hC⟩
    have nC : C'.nrows = n := by rw [hs.sh.nrows, hr]
    have cC : C'.ncols = c := by rw [hs.sh.ncols, hc]
    have hrd : ∀ z, z < 8 → ∃ v : Word, mzd_read_bits L j (n - i - (z + 1) * k) k = .ok v ∧ ∀ b, v.getLsbD b = (decide (b < k) && L.bit j (n - i - (z + 1) * k + b)) := by
      intro z hz'
      have := hz z hz'
      exact read_bits wL (show j < L.nrows by omega) (show 0 < k by omega) (by omega) (by unfold Mzd.width; omega)
    choose! v hv1 hv2 using hrd
    have hab : ∀ z < 8, ∀ l, (v z).toNat.testBit l = (decide (l < k) && L.bit j (n - i - (z + 1) * k + l)) := fun z hz l => by rw [BitVec.testBit_toNat, hv2 z hz]
    have hlt : ∀ z < 8, (v z).toNat < 2 ^ k := fun z hz => lt_pow_of_testBit fun b hb => by rw [hab z hz, decide_eq_false (by omega)]; rfl
    rw [nC]
    have hmap := mapM_range (n := 8) (g := fun z => do pure ((T z).T, ← (T z).L.get (← mzd_read_bits L j (n - i - (z + 1) * k) k).toNat))
      (h := fun z => ((T z).T, (T z).L.cell (v z).toNat)) (fun z hz => by
        rw [hv1 z hz, C_ok_bind, Mem.get_eq (Nat.lt_of_lt_of_le (hlt z hz) (hT2 z hz).size)]; rfl)
    rw [hmap, C_ok_bind]
    refine (tabs_row (x := fun z => (v z).toNat) hT1 hT2 (h1.sh.of_both hs.sh) (hs.sh.wf wM) (by omega) hlt).mono fun N ⟨shN, hN⟩ => ?_
    refine ⟨hs.rows (s := st) (w := 8 * k) (j := j) (fun l hl _ b => hC l hl b) shN (fun a b => ?_) (by omega) (by omega) (Or.inl hj2) (fun a ha => decide_eq_false (by omega))
      (fun l h1 h2 => decide_eq_false (by omega)) (fun a ha l hl => by simp only [decide_eq_true_eq]; omega), fun a ha b => ?_⟩
    · rw [hN, cC]
      congr 2
      rw [xsum_mul 8 k, xsum_rev 8]
      refine xsum_congr fun z hz' => xsum_congr fun l hl => ?_
      rw [hab _ (by omega), decide_eq_true hl, Bool.true_and, (hz (8 - 1 - z) (by omega)).1, show 7 - (8 - 1 - z) = z by omega, Nat.add_assoc]
    · rw [hN, decide_eq_false (by omega), Bool.false_and, Bool.xor_false, hC a ha]
  · intro C' ⟨hs, _⟩
    rw [Ok.pure_iff]
    exact ⟨hs.congr' fun a ha l hl => by simp only [decide_eq_true_eq]; omega, fun z hz => (hT1 z hz).back h1.sh⟩

theorem upperLeftRest_spec (wL : L.Wf) (lr : L.nrows = n) (lc : L.ncols = n) (wM : M.Wf) (hr : M.nrows = n) (hc : M.ncols = c) (h0 : 0 < c) {i k k' : Nat} (hk1 : 1 ≤ k) (hk2 : k ≤ k')
    (hk3 : k' ≤ 8) (hi : i + k ≤ n) {s : Mzd × (Nat → Tab)} (h : Sol L M s.1 n c fun a l => decide (a < l ∧ n - i ≤ l)) (hT : CanTab M k' 0 (s.2 0)) :
    Ok (upperLeftRest L k i s) fun s' => Sol L M s'.1 n c (fun a l => decide (a < l ∧ n - i - k ≤ l)) ∧ CanTab M k' 0 (s'.2 0) := by
  unfold upperLeftRest
  have ns : s.1.nrows = n := by rw [h.sh.nrows, hr]
  rw [ns]
  generalize hst : n - i - k = st
  refine Ok.bind (upperLeftSub_spec wL lr lc wM hr hc h0 (start := st) (k := k) (by omega) (h.congr' fun a ha l hl => by simp only [decide_eq_true_eq]; omega)) fun Bt h1 => ?_
  have wB := h1.sh.wf wM
  have nB : Bt.nrows = n := by rw [h1.sh.nrows, hr]
  have cB : Bt.ncols = c := by rw [h1.sh.ncols, hc]
  have hT' := hT.sh h1.sh
  rw [nB, hst]
  refine Ok.bind (make_table wB (hT'.le hk2) (Nat.zero_le _) (by omega) (by omega) (by omega)) fun t ⟨hT1, hT2⟩ => ?_
  rw [Ok.bind_iff]
  refine Ok.forUp (P := fun j C' => Sol L M C' n c (fun a l => decide (a < l ∧ (st + k ≤ l ∨ st ≤ a ∨ st ≤ l ∧ a < j))) ∧ ∀ a, st ≤ a → ∀ b, C'.bit a b = Bt.bit a b) (Nat.zero_le _)
    ⟨h1.congr' fun a ha l hl => by simp only [decide_eq_true_eq]; omega, fun _ _ _ => rfl⟩ ?_ ?_
  · intro j C' _ hj2 ⟨hs, hC⟩
    have nC : C'.nrows = n := by rw [hs.sh.nrows, hr]
    have cC : C'.ncols = c := by rw [hs.sh.ncols, hc]
    rw [nC, hst]
    refine Ok.bind (read_bits wL (show j < L.nrows by omega) (show 0 < k by omega) (by omega) (by unfold Mzd.width; omega)) fun v hv => ?_
    have hab : ∀ l, v.toNat.testBit l = (decide (l < k) && L.bit j (st + l)) := fun l => by rw [BitVec.testBit_toNat, hv]
    have hlt : v.toNat < 2 ^ k := lt_pow_of_testBit fun b hb => by rw [hab, decide_eq_false (by omega)]; rfl
    rw [Mem.get_eq (Nat.lt_of_lt_of_le hlt hT1.size), C_ok_bind]
    refine (tabs_row (m := 1) (T := fun _ => t) (r := fun _ => st) (x := fun _ => v.toNat) (fun _ _ => hT2 k (hT'.le hk2)) (fun _ _ => hT1) (h1.sh.of_both hs.sh) (hs.sh.wf wM) (by omega) fun _ _ => hlt).mono fun N ⟨shN, hN⟩ => ?_
    refine ⟨hs.rows (s := st) (w := k) (j := j) (fun l hl _ b => hC l hl b) shN (fun a b => ?_) (by omega) (by omega) (Or.inl hj2) (fun a ha => decide_eq_false (by omega))
      (fun l h1 h2 => decide_eq_false (by omega)) (fun a ha l hl => by simp only [decide_eq_true_eq]; omega), fun a ha b => ?_⟩
    · rw [hN, cC]
      congr 2
      simp only [xsum, Bool.false_xor]
      exact xsum_congr fun l hl => by rw [hab, decide_eq_true hl, Bool.true_and]
    · rw [hN, decide_eq_false (by omega), Bool.false_and, Bool.xor_false, hC a ha]
  · intro C' ⟨hs, _⟩
    rw [Ok.pure_iff]
    refine ⟨hs.congr' fun a ha l hl => by simp only [decide_eq_true_eq]; omega, ?_⟩
    show CanTab M k' 0 (Function.update s.2 0 t 0)
    rw [Function.update_self]
    exact (hT2 k' hT').back h1.sh

theorem upper_left_russian (wL : L.Wf) (lr : L.nrows = n) (lc : L.ncols = n) (wM : M.Wf) (hr : M.nrows = n) (hc : M.ncols = c) (h0 : 0 < c) (hn : 0 < n) (align : Bool) (k0 : Int) :
    Ok (_mzd_trsm_upper_left_russian align k0 L M) fun N => Sol L M N n c fun a l => decide (a < l) := by
  unfold _mzd_trsm_upper_left_russian
  simp only []
  obtain ⟨hk1, hk2⟩ := clampK_range k0
  generalize clampK k0 = k at hk1 hk2
  rw [hr]
  have hq1 : 8 * k * ((n - 1) / (8 * k)) ≤ n - 1 := Nat.mul_div_le _ _
  generalize hq : (n - 1) / (8 * k) = q at hq1
  refine Ok.bind (P := fun s => Sol L M s.1 n c (fun a l => decide (a < l ∧ n - 8 * k * q ≤ l)) ∧ ∀ z < 8, CanTab M k 0 (s.2 z)) ?_ ?_
  · refine Ok.forUp (P := fun t s => Sol L M s.1 n c (fun a l => decide (a < l ∧ n - 8 * k * t ≤ l)) ∧ ∀ z < 8, CanTab M k 0 (s.2 z)) (Nat.zero_le _)
      ⟨Sol.start fun a _ l _ => decide_eq_false (by rw [Nat.mul_zero]; omega), fun z _ => trsmTables_can z⟩ ?_ fun s h => h
    intro t s _ ht ⟨hs, hT⟩
    have h1 : 8 * k * (t + 1) ≤ 8 * k * q := Nat.mul_le_mul_left _ ht
    rw [Nat.mul_succ] at h1
    refine (upperLeftBlock_spec wL lr lc wM hr hc h0 hk1 hk2 (by omega) hs hT).mono fun s' ⟨h2, h3⟩ => ⟨h2.congr' fun a ha l hl => ?_, h3⟩
    rw [Nat.mul_succ, Nat.sub_add_eq]
  intro s ⟨hs, hT⟩
  generalize hi0 : 8 * k * q = i0 at hs hq1
  have hm : ∀ t, t < (n - i0 + k - 1) / k → i0 + k * t < n := by
    intro t ht
    have := (Nat.le_div_iff_mul_le (by omega)).1 (show t + 1 ≤ (n - i0 + k - 1) / k by omega)
    rw [Nat.succ_mul, Nat.mul_comm] at this
    omega
  have hend : n ≤ i0 + k * ((n - i0 + k - 1) / k) := by
    have := Nat.lt_mul_div_succ (n - i0 + k - 1) (show 0 < k by omega)
    rw [Nat.mul_succ] at this
    omega
  rw [Ok.bind_iff]
  refine Ok.forUp (P := fun t s => Sol L M s.1 n c (fun a l => decide (a < l ∧ n - (i0 + k * t) ≤ l)) ∧ CanTab M k 0 (s.2 0)) (Nat.zero_le _)
    ⟨hs.congr' fun a ha l hl => by simp only [decide_eq_true_eq, Nat.mul_zero]; omega, hT 0 (by omega)⟩ ?_ ?_
  · intro t s _ ht ⟨hs, hT⟩
    have h1 := hm t ht
    refine (upperLeftRest_spec wL lr lc wM hr hc h0 (by omega) (Nat.min_le_left _ _) (by omega) (by omega) hs hT).mono fun s' ⟨h2, h3⟩ => ⟨h2.congr' fun a ha l hl => ?_, h3⟩
    rw [Nat.mul_succ]
    simp only [decide_eq_true_eq]
    omega
  · intro s ⟨hs, _⟩
    rw [Ok.pure_iff]
    exact hs.congr' fun a ha l hl => by simp only [decide_eq_true_eq]; omega

end WB.m4w
