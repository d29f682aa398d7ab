import Verif.Proof.M4riGauss
import Verif.Proof.M4riMul

/-!
# `mzd_process_rows` … `mzd_process_rows6` (helper lemmas)
-/
namespace WB.m4w

open WB.cmp (Mem Mem2)

/-- The rows `r, …, r + k - 1` of `M0` have been added to row `a` of `N` as its entries in the columns `c, …, c + k - 1` say. -/
def RowUpd (M0 : Mzd) (r c k a : Nat) (N N' : Mzd) : Prop := Sh N N' ∧ ∀ a' b, N'.bit a' b =
  (N.bit a' b ^^ (decide (a' = a ∧ c ≤ b ∧ b < M0.ncols) && xsum k fun l => N.bit a (c + l) && M0.bit (r + l) b))

/-- The same for the rows from `lo` to `hi`. -/
def Upd (M0 : Mzd) (r c k lo hi : Nat) (N N' : Mzd) : Prop := Sh N N' ∧ ∀ a b, N'.bit a b =
  (N.bit a b ^^ (decide ((lo ≤ a ∧ a < hi) ∧ c ≤ b ∧ b < M0.ncols) && xsum k fun l => N.bit a (c + l) && M0.bit (r + l) b))

theorem Upd.refl (M0 : Mzd) (r c k lo : Nat) (N : Mzd) : Upd M0 r c k lo lo N N :=
  ⟨Sh.refl N, fun a b => by rw [decide_eq_false (by omega)]; simp⟩

theorem Upd.step {M0 : Mzd} {r c k lo a : Nat} {N N' N'' : Mzd} (h : Upd M0 r c k lo a N N') (hlo : lo ≤ a) (h' : RowUpd M0 r c k a N' N'') :
    Upd M0 r c k lo (a + 1) N N'' := by
  refine ⟨h.1.trans h'.1, fun a' b => ?_⟩
  have hrow : ∀ b, N'.bit a b = N.bit a b := fun b => by rw [h.2, decide_eq_false (by omega)]; simp
  rw [h'.2]
  by_cases ha : a' = a
  · subst ha
    rw [hrow, xsum_congr fun l _ => by rw [hrow],
      show decide (a' = a' ∧ c ≤ b ∧ b < M0.ncols) = decide ((lo ≤ a' ∧ a' < a' + 1) ∧ c ≤ b ∧ b < M0.ncols) from decide_eq_decide.2 (by omega)]
  · rw [decide_eq_false (show ¬ (a' = a ∧ _) from fun h => ha h.1), h.2,
      show decide ((lo ≤ a' ∧ a' < a) ∧ c ≤ b ∧ b < M0.ncols) = decide ((lo ≤ a' ∧ a' < a + 1) ∧ c ≤ b ∧ b < M0.ncols) from decide_eq_decide.2 (by omega)]
    simp

/-- Adding rows of tables whose sum is known. -/
theorem row_upd {M0 N : Mzd} {r c k a : Nat} (w : N.Wf) (sh : Sh M0 N) (ha : a < N.nrows) (hc : c < M0.ncols) {xs : List (Mzd × Nat)}
    (hxs : ∀ p ∈ xs, p.1.Wf ∧ p.2 < p.1.nrows ∧ p.1.width = N.width)
    (hsum : ∀ b, c / 64 ≤ b / 64 → b / 64 < M0.width → rowsum xs b = (decide (c ≤ b ∧ b < M0.ncols) && xsum k fun l => N.bit a (c + l) && M0.bit (r + l) b)) :
    Ok (mzd_combine_n N a (c / 64) (N.width - c / 64) xs) (RowUpd M0 r c k a N) := by
  have hw : c / 64 < N.width := by rw [sh.width]; exact lt_width hc
  refine (combine_n w ha (by omega) xs hxs).mono ?_
  intro N' ⟨sh', hN'⟩
  refine ⟨sh', fun a' b => ?_⟩
  rw [hN']
  congr 1
  by_cases h : a' = a ∧ c / 64 ≤ b / 64 ∧ b / 64 < c / 64 + (N.width - c / 64)
  · rw [decide_eq_true h, Bool.true_and, hsum b h.2.1 (by rw [← sh.width]; omega)]
    congr 1
    rw [decide_eq_decide]
    exact ⟨fun h' => ⟨h.1, h'⟩, fun h' => h'.2⟩
  · rw [decide_eq_false h, decide_eq_false]
    · rfl
    · intro h'
      have := lt_width h'.2.2
      rw [← sh.width] at this
      omega

/-- The index that a row of `N` has in a table. -/
theorem tab_index {N : Mzd} (w : N.Wf) {c k a : Nat} (ha : a < N.nrows) (hk1 : 1 ≤ k) (hk2 : k ≤ 64) (hc : c + k ≤ N.ncols) :
    Ok (mzd_read_bits N a c k) fun v => v.toNat < 2 ^ k ∧ (∀ l < k, v.toNat.testBit l = N.bit a (c + l)) ∧ ∀ l, v.getLsbD l = (decide (l < k) && N.bit a (c + l)) := by
  refine (read_bits w ha (by omega) hk2 (by unfold Mzd.width; omega)).mono ?_
  intro v hv
  have hb : ∀ l, v.toNat.testBit l = (decide (l < k) && N.bit a (c + l)) := fun l => by rw [BitVec.testBit_toNat, hv]
  exact ⟨lt_pow_of_testBit fun b hb' => by rw [hb, decide_eq_false (by omega)]; rfl, fun l hl => by rw [hb, decide_eq_true hl, Bool.true_and], hv⟩

/-! ## One table -/

variable {M0 : Mzd} {r c k : Nat} {t : Tab}

theorem one_table {N : Mzd} {a x : Nat} (w : N.Wf) (sh : Sh M0 N) (h1 : IsTab M0 r c k t) (h2 : CanTab M0 k 0 t) (ha : a < N.nrows) (hc : c < M0.ncols) (hx : x < 2 ^ k)
    (hxb : ∀ l < k, x.testBit l = N.bit a (c + l)) :
    Ok (mzd_combine_n N a (c / 64) (N.width - c / 64) [(t.T, t.L.cell x)]) (RowUpd M0 r c k a N) := by
  refine row_upd w sh ha hc ?_ ?_
  · intro p hp
    obtain rfl := List.mem_singleton.1 hp
    exact ⟨h2.wf, Nat.lt_of_lt_of_le (h1.lt x hx) h2.rows, by rw [sh.width]; exact h2.width⟩
  · intro b hb1 hb2
    have : rowsum [(t.T, t.L.cell x)] b = t.T.bit (t.L.cell x) b := by unfold rowsum; simp
    rw [this, h1.row x hx b hb1 hb2]
    congr 1
    exact xsum_congr fun l hl => by rw [hxb l hl]

theorem process_row_spec {N : Mzd} {a : Nat} (w : N.Wf) (sh : Sh M0 N) (h1 : IsTab M0 r c k t) (h2 : CanTab M0 k 0 t) (ha : a < N.nrows) (hk1 : 1 ≤ k) (hk2 : k ≤ 64)
    (hc : c + k ≤ M0.ncols) : Ok (process_row N a c k t) (RowUpd M0 r c k a N) := by
  unfold process_row
  refine Ok.bind (tab_index w ha hk1 hk2 (by rw [sh.ncols]; exact hc)) ?_
  intro v ⟨hv, hvb, _⟩
  rw [Mem.get_eq (Nat.lt_of_lt_of_le hv h1.size), C_ok_bind]
  exact one_table w sh h1 h2 ha (by omega) hv hvb

theorem process_pair_spec {N : Mzd} {a : Nat} (w : N.Wf) (sh : Sh M0 N) (h1 : IsTab M0 r c k t) (h2 : CanTab M0 k 0 t) (ha : a + 1 < N.nrows) (hk1 : 1 ≤ k) (hk2 : k ≤ 64)
    (hc : c + k ≤ M0.ncols) : Ok (process_pair N a c k t) fun N' => ∃ N1, RowUpd M0 r c k a N N1 ∧ RowUpd M0 r c k (a + 1) N1 N' := by
  unfold process_pair
  refine Ok.bind (tab_index w (show a < N.nrows by omega) hk1 hk2 (by rw [sh.ncols]; exact hc)) ?_
  intro v ⟨hv, hvb, _⟩
  rw [Mem.get_eq (Nat.lt_of_lt_of_le hv h1.size), C_ok_bind]
  refine Ok.bind (tab_index w ha hk1 hk2 (by rw [sh.ncols]; exact hc)) ?_
  intro u ⟨hu, hub, _⟩
  rw [Mem.get_eq (Nat.lt_of_lt_of_le hu h1.size), C_ok_bind]
  refine Ok.bind (one_table w sh h1 h2 (by omega) (by omega) hv hvb) ?_
  intro N1 hN1
  refine (one_table (hN1.1.wf w) (sh.trans hN1.1) h1 h2 (by rw [hN1.1.nrows]; exact ha) (by omega) hu fun l hl => ?_).mono fun N' hN' => ⟨N1, hN1, hN'⟩
  rw [hub l hl, hN1.2, decide_eq_false (by omega)]
  simp

theorem and_bm {M : Mzd} (a : Nat) : (M.word a (c / 64) &&& (1#64 <<< (c % 64))).getLsbD (c % 64) = M.bit a c ∧
    ∀ b, b ≠ c % 64 → (M.word a (c / 64) &&& (1#64 <<< (c % 64))).getLsbD b = false := by
  have h64 : c % 64 < 64 := Nat.mod_lt _ (by decide)
  refine ⟨?_, fun b hb => ?_⟩
  · rw [BitVec.getLsbD_and, one_shift_bit _ _ h64, bit_def M rfl]; simp
  · rw [BitVec.getLsbD_and, one_shift_bit _ _ h64, decide_eq_false hb]; simp

theorem one_bit_ne {x : Word} {s : Nat} (hx : ∀ b, b ≠ s → x.getLsbD b = false) : x ≠ 0#64 ↔ x.getLsbD s = true := by
  constructor
  · intro h
    by_contra hs
    refine h (bit_ext fun b _ => ?_)
    rw [BitVec.getLsbD_zero]
    by_cases hb : b = s
    · rw [hb]; simpa using hs
    · exact hx b hb
  · rintro h rfl
    simp at h

theorem process_pair_one_spec {N : Mzd} {a : Nat} (w : N.Wf) (sh : Sh M0 N) (h1 : IsTab M0 r c 1 t) (h2 : CanTab M0 1 0 t) (ha : a + 1 < N.nrows) (hc : c < M0.ncols)
    (hrc : M0.bit r c = true) : Ok (process_pair_one N a c t.T) fun N' => ∃ N1, RowUpd M0 r c 1 a N N1 ∧ RowUpd M0 r c 1 (a + 1) N1 N' := by
  have hL : t.L.cell 1 = 1 := by
    have hlt := h1.lt 1 (by decide)
    have hrow := h1.row 1 (by decide) c (Nat.le_refl _) (lt_width hc)
    rw [decide_eq_true ⟨Nat.le_refl _, hc⟩] at hrow
    have : (xsum 1 fun l => Nat.testBit 1 l && M0.bit (r + l) c) = true := by simp [xsum, hrc]
    rw [this] at hrow
    by_contra hne
    rw [show t.L.cell 1 = 0 by omega, h2.zero c (Nat.zero_le _) (lt_width hc)] at hrow
    simp at hrow
  have yes : ∀ {N a}, N.Wf → Sh M0 N → a < N.nrows → N.bit a c = true → Ok (mzd_combine_n N a (c / 64) (N.width - c / 64) [(t.T, 1)]) (RowUpd M0 r c 1 a N) := by
    intro N a w sh ha hb
    have := one_table (x := 1) w sh h1 h2 ha hc (by decide) (fun l hl => by rw [show l = 0 by omega, Nat.add_zero, hb]; decide)
    rw [hL] at this
    exact this
  have no : ∀ {N a}, N.bit a c = false → RowUpd M0 r c 1 a N N := by
    intro N a hb
    refine ⟨Sh.refl N, fun a' b => ?_⟩
    rw [show (xsum 1 fun l => N.bit a (c + l) && M0.bit (r + l) b) = false by simp [xsum, hb]]
    simp
  have keep : ∀ {N N1 a}, RowUpd M0 r c 1 a N N1 → N1.bit (a + 1) c = N.bit (a + 1) c := fun h => by rw [h.2, decide_eq_false (by omega)]; simp
  unfold process_pair_one
  have hw : c / 64 < N.width := by rw [sh.width]; exact lt_width hc
  dsimp only
  rw [get_eq (w.at (show a < N.nrows by omega) hw), C_ok_bind, get_eq (w.at ha hw), C_ok_bind]
  obtain ⟨p1, p2⟩ := and_bm (M := N) (c := c) a
  obtain ⟨q1, q2⟩ := and_bm (M := N) (c := c) (a + 1)
  generalize N.word a (c / 64) &&& (1#64 <<< (c % 64)) = b0 at p1 p2 ⊢
  generalize N.word (a + 1) (c / 64) &&& (1#64 <<< (c % 64)) = b1 at q1 q2 ⊢
  have e0 := one_bit_ne p2
  have e1 := one_bit_ne q2
  have e2 : b0 &&& b1 ≠ 0#64 ↔ b0.getLsbD (c % 64) = true ∧ b1.getLsbD (c % 64) = true := by
    rw [one_bit_ne (x := b0 &&& b1) (s := c % 64) fun b hb => by rw [BitVec.getLsbD_and, p2 b hb]; rfl, BitVec.getLsbD_and, Bool.and_eq_true]
  rw [p1] at e0 e2
  rw [q1] at e1 e2
  cases hb0 : N.bit a c <;> cases hb1 : N.bit (a + 1) c
  · rw [if_neg (by rw [e2, hb0]; simp), if_neg (by rw [e0, hb0]; simp), if_neg (by rw [e1, hb1]; simp), Ok.pure_iff]
    exact ⟨N, no hb0, no hb1⟩
  · rw [if_neg (by rw [e2, hb0]; simp), if_neg (by rw [e0, hb0]; simp), if_pos (e1.2 hb1)]
    exact (yes w sh ha hb1).mono fun N' h => ⟨N, no hb0, h⟩
  · rw [if_neg (by rw [e2, hb1]; simp), if_pos (e0.2 hb0)]
    exact (yes w sh (by omega) hb0).mono fun N' h => ⟨N', h, no (by rw [keep h, hb1])⟩
  · rw [if_pos (e2.2 ⟨hb0, hb1⟩)]
    refine Ok.bind (yes w sh (by omega) hb0) fun N1 h => ?_
    have := yes (a := a + 1) (h.1.wf w) (sh.trans h.1) (by rw [h.1.nrows]; exact ha) (by rw [keep h, hb1])
    rw [h.1.width] at this
    exact this.mono fun N' h' => ⟨N1, h, h'⟩

theorem process_rows_spec {N : Mzd} {lo hi : Nat} (w : N.Wf) (sh : Sh M0 N) (h1 : IsTab M0 r c k t) (h2 : CanTab M0 k 0 t) (hlo : lo ≤ hi) (hhi : hi ≤ N.nrows) (hk1 : 1 ≤ k)
    (hk2 : k ≤ 64) (hc : c + k ≤ M0.ncols) (hrc : M0.bit r c = true) : Ok (mzd_process_rows N lo hi c k t) (Upd M0 r c k lo hi N) := by
  unfold mzd_process_rows
  refine Ok.bind (P := Upd M0 r c k lo (lo + 2 * ((hi - lo) / 2)) N) ?_ ?_
  · refine Ok.forUp (P := fun p => Upd M0 r c k lo (lo + 2 * p) N) (Nat.zero_le _) (Upd.refl ..) ?_ (fun N h => h)
    intro p N' _ hp hN'
    have : Ok (if k = 1 then process_pair_one N' (lo + 2 * p) c t.T else process_pair N' (lo + 2 * p) c k t) fun N'' =>
        ∃ N1, RowUpd M0 r c k (lo + 2 * p) N' N1 ∧ RowUpd M0 r c k (lo + 2 * p + 1) N1 N'' := by
      split
      · rename_i hk
        subst hk
        exact process_pair_one_spec (hN'.1.wf w) (sh.trans hN'.1) h1 h2 (by rw [hN'.1.nrows]; omega) (by omega) hrc
      · exact process_pair_spec (hN'.1.wf w) (sh.trans hN'.1) h1 h2 (by rw [hN'.1.nrows]; omega) hk1 hk2 hc
    refine this.mono ?_
    rintro N'' ⟨N1, u1, u2⟩
    exact (hN'.step (by omega) u1).step (by omega) u2
  · intro N1 hN1
    refine Ok.forUp (P := fun a => Upd M0 r c k lo a N) (by omega) hN1 ?_ (fun N h => h)
    intro a N' ha1 ha2 hN'
    refine (process_row_spec (hN'.1.wf w) (sh.trans hN'.1) h1 h2 (by rw [hN'.1.nrows]; omega) hk1 hk2 hc).mono fun N'' h => hN'.step (by omega) h

/-! ## Several tables -/

/-- The tables for the rows from `r` on. -/
def Tabs (M0 : Mzd) (c : Nat) : Nat → List (Nat × Tab) → Prop
  | _, [] => True
  | r, (k, t) :: ts => 1 ≤ k ∧ k ≤ 16 ∧ IsTab M0 r c k t ∧ CanTab M0 k 0 t ∧ Tabs M0 c (r + k) ts

theorem mask_bit {x : Word} {k l : Nat} (hk1 : 1 ≤ k) (hk2 : k ≤ 16) : ((x &&& leftMask k).toNat).testBit l = (decide (l < k) && x.getLsbD l) := by
  rw [BitVec.testBit_toNat, BitVec.getLsbD_and, leftMask_bit _ _ (by omega), Bool.and_comm, show decide (l < 64 ∧ (k = 0 ∨ l < k)) = decide (l < k) from decide_eq_decide.2 (by omega)]

theorem mask_lt {x : Word} {k : Nat} (hk1 : 1 ≤ k) (hk2 : k ≤ 16) : (x &&& leftMask k).toNat < 2 ^ k :=
  lt_pow_of_testBit fun b hb => by rw [mask_bit hk1 hk2, decide_eq_false (by omega)]; rfl

theorem rowsum_cons (p : Mzd × Nat) (xs : List (Mzd × Nat)) (b : Nat) : rowsum (p :: xs) b = (p.1.bit p.2 b ^^ rowsum xs b) := by
  show List.foldl _ (false ^^ p.1.bit p.2 b) xs = _
  rw [foldl_xor, Bool.false_xor]

theorem lookups_spec (M0 : Mzd) (c : Nat) : ∀ (ts : List (Nat × Tab)) (r : Nat) (bits : Word), Tabs M0 c r ts →
    Ok (lookups bits ts) fun xs => (∀ p ∈ xs, p.1.Wf ∧ p.2 < p.1.nrows ∧ p.1.width = M0.width) ∧
      (∀ p ∈ xs, ∀ b, b / 64 < M0.width → p.1.bit 0 b = false) ∧
      ∀ b, c / 64 ≤ b / 64 → b / 64 < M0.width → rowsum xs b =
        (decide (c ≤ b ∧ b < M0.ncols) && xsum (ts.map Prod.fst).sum fun l => bits.getLsbD l && M0.bit (r + l) b)
  | [], r, bits, _ => by
    rw [lookups, Ok.pure_iff]
    refine ⟨by simp, by simp, fun b _ _ => ?_⟩
    simp [rowsum, xsum]
  | (k, t) :: ts, r, bits, ⟨hk1, hk2, h1, h2, h3⟩ => by
    rw [lookups, Mem.get_eq (Nat.lt_of_lt_of_le (mask_lt hk1 hk2) h1.size), C_ok_bind]
    refine Ok.bind (lookups_spec M0 c ts (r + k) (bits >>> k) h3) ?_
    intro xs ⟨e1, e2, e3⟩
    rw [Ok.pure_iff]
    refine ⟨fun p hp => ?_, fun p hp => ?_, fun b hb1 hb2 => ?_⟩
    · rcases List.mem_cons.1 hp with rfl | hp
      · exact ⟨h2.wf, Nat.lt_of_lt_of_le (h1.lt _ (mask_lt hk1 hk2)) h2.rows, h2.width⟩
      · exact e1 p hp
    · rcases List.mem_cons.1 hp with rfl | hp
      · exact fun b hb => h2.zero b (Nat.zero_le _) hb
      · exact e2 p hp
    · rw [rowsum_cons, e3 b hb1 hb2, h1.row _ (mask_lt hk1 hk2) b hb1 hb2, List.map_cons, List.sum_cons, xsum_add,
        xsum_congr (n := k) (f := fun l => ((bits &&& leftMask k).toNat).testBit l && M0.bit (r + l) b) (g := fun l => bits.getLsbD l && M0.bit (r + l) b)
          fun l hl => by rw [mask_bit hk1 hk2, decide_eq_true hl, Bool.true_and],
        xsum_congr (f := fun l => (bits >>> k).getLsbD l && M0.bit (r + k + l) b) (g := fun l => bits.getLsbD (k + l) && M0.bit (r + (k + l)) b)
          fun l _ => by rw [BitVec.getLsbD_ushiftRight, Nat.add_assoc]]
      cases decide (c ≤ b ∧ b < M0.ncols) <;> simp

theorem rowsum_zero {xs : List (Mzd × Nat)} {b : Nat} (h : ∀ p ∈ xs, p.2 = 0 ∧ p.1.bit 0 b = false) : rowsum xs b = false := by
  induction xs with
  | nil => rfl
  | cons p xs ih =>
    rw [rowsum_cons, ih fun q hq => h q (List.mem_cons_of_mem _ hq), (h p (List.mem_cons_self ..)).1, (h p (List.mem_cons_self ..)).2]
    rfl

theorem process_rows_n_spec {N : Mzd} {lo hi : Nat} {ts : List (Nat × Tab)} (w : N.Wf) (sh : Sh M0 N) (ht : Tabs M0 c r ts) (hsum : (ts.map Prod.fst).sum = k) (hlo : lo ≤ hi)
    (hhi : hi ≤ N.nrows) (hk1 : 1 ≤ k) (hk2 : k ≤ 64) (hc : c + k ≤ M0.ncols) : Ok (mzd_process_rows_n N lo hi c k ts) (Upd M0 r c k lo hi N) := by
  unfold mzd_process_rows_n
  refine Ok.forUp (P := fun a => Upd M0 r c k lo a N) hlo (Upd.refl ..) ?_ (fun N h => h)
  intro a N' ha1 ha2 hN'
  have w' := hN'.1.wf w
  have sh' := sh.trans hN'.1
  have ha : a < N'.nrows := by rw [hN'.1.nrows]; omega
  refine Ok.bind (tab_index w' ha hk1 hk2 (by rw [sh'.ncols]; exact hc)) ?_
  intro v ⟨_, _, hv⟩
  refine Ok.bind (lookups_spec M0 c ts r v ht) ?_
  intro xs ⟨e1, e2, e3⟩
  rw [hsum] at e3
  have e3' : ∀ b, c / 64 ≤ b / 64 → b / 64 < M0.width → rowsum xs b = (decide (c ≤ b ∧ b < M0.ncols) && xsum k fun l => N'.bit a (c + l) && M0.bit (r + l) b) := by
    intro b hb1 hb2
    rw [e3 b hb1 hb2]
    congr 1
    exact xsum_congr fun l hl => by rw [hv, decide_eq_true hl, Bool.true_and]
  split
  · rename_i hall
    rw [Ok.pure_iff]
    refine hN'.step ha1 ⟨Sh.refl _, fun a' b => ?_⟩
    by_cases hb : a' = a ∧ c ≤ b ∧ b < M0.ncols
    · have h0 := e3' b (by omega) (lt_width hb.2.2)
      rw [rowsum_zero fun p hp => ⟨by simpa using List.all_eq_true.1 hall p hp, e2 p hp b (lt_width hb.2.2)⟩, decide_eq_true hb.2, Bool.true_and] at h0
      rw [← h0]; simp
    · rw [decide_eq_false hb]; simp
  · exact (row_upd w' sh' ha (by omega) (fun p hp => ⟨(e1 p hp).1, (e1 p hp).2.1, by rw [sh'.width]; exact (e1 p hp).2.2⟩) e3').mono fun N'' h => hN'.step ha1 h

end WB.m4w
