import Verif.Proof.M4riProcess
import Mathlib.Tactic.IntervalCases

/-!
# The tables of `_mzd_echelonize_m4ri` and their use (helper lemmas)
-/
namespace WB.m4w

open WB.cmp (Mem Mem2)

theorem CanTab.mono {M : Mzd} {k k' b : Nat} {t : Tab} (h : CanTab M k b t) (hk : k' ≤ k) : CanTab M k' b t :=
  have hp : 2 ^ k' ≤ 2 ^ k := Nat.pow_le_pow_right (by decide) hk
  ⟨h.wf, h.width, Nat.le_trans hp h.rows, Nat.le_trans hp h.size, h.zero⟩

theorem CanTab.of_width {M N : Mzd} {k b : Nat} {t : Tab} (h : CanTab M k b t) (hw : N.width = M.width) : CanTab N k b t :=
  ⟨h.wf, by rw [hw]; exact h.width, h.rows, h.size, by rw [hw]; exact h.zero⟩

theorem CanTab.sh {M N : Mzd} {k b : Nat} {t : Tab} (h : CanTab M k b t) (sh : Sh M N) : CanTab N k b t := h.of_width sh.width

theorem parts_spec {n k kbar : Nat} (hn : 2 ≤ n) (hn' : n ≤ 6) (h1 : (n - 1) * k < kbar) (h2 : kbar ≤ n * k) :
    (parts n kbar).length = n ∧ (parts n kbar).sum = kbar ∧ ∀ p ∈ parts n kbar, 1 ≤ p ∧ p ≤ k := by
  have hk : 0 < k := by
    rcases Nat.eq_zero_or_pos k with rfl | h
    · simp at h1 h2; omega
    · exact h
  interval_cases n
  · have e1 : kbar / 2 ≤ k := by omega
    have e2 : kbar - kbar / 2 ≤ k := by omega
    refine ⟨rfl, ?_, ?_⟩
    · simp only [parts, List.sum_cons, List.sum_nil]; omega
    · simp only [parts, List.mem_cons, List.not_mem_nil, or_false]
      rintro p (rfl | rfl) <;> omega
  · refine ⟨rfl, ?_, ?_⟩
    · simp only [parts, List.sum_cons, List.sum_nil]; split <;> split <;> omega
    · simp only [parts, List.mem_cons, List.not_mem_nil, or_false]
      rintro p (rfl | rfl | rfl) <;> first | (split <;> omega) | omega
  · refine ⟨rfl, ?_, ?_⟩
    · simp only [parts, List.sum_cons, List.sum_nil]; split <;> split <;> split <;> omega
    · simp only [parts, List.mem_cons, List.not_mem_nil, or_false]
      rintro p (rfl | rfl | rfl | rfl) <;> first | (split <;> omega) | omega
  · refine ⟨rfl, ?_, ?_⟩
    · simp only [parts, List.sum_cons, List.sum_nil]; split <;> split <;> split <;> split <;> omega
    · simp only [parts, List.mem_cons, List.not_mem_nil, or_false]
      rintro p (rfl | rfl | rfl | rfl | rfl) <;> first | (split <;> omega) | omega
  · refine ⟨rfl, ?_, ?_⟩
    · simp only [parts, List.sum_cons, List.sum_nil]; split <;> split <;> split <;> split <;> split <;> omega
    · simp only [parts, List.mem_cons, List.not_mem_nil, or_false]
      rintro p (rfl | rfl | rfl | rfl | rfl | rfl) <;> first | (split <;> omega) | omega

theorem makeTables_spec {A : Mzd} (w : A.Wf) {c k : Nat} (hc : c < A.ncols) (hk : k ≤ 16) : ∀ (ks : List Nat) (z r : Nat) (T : Nat → Tab),
    (∀ p ∈ ks, 1 ≤ p ∧ p ≤ k) → r + ks.sum ≤ A.nrows → z + ks.length ≤ 6 → (∀ y < 6, CanTab A k 0 (T y)) →
    Ok (makeTables A c ks z r T) fun T' => (∀ y < 6, CanTab A k 0 (T' y)) ∧ (∀ y < z, T' y = T y) ∧ Tabs A c r ((ks.zipIdx z).map fun p => (p.1, T' p.2))
  | [], z, r, T, _, _, _, hT => by
    rw [makeTables, Ok.pure_iff]
    exact ⟨hT, fun y _ => rfl, trivial⟩
  | ka :: ks, z, r, T, hks, hr, hz, hT => by
    rw [makeTables]
    rw [List.sum_cons] at hr
    rw [List.length_cons] at hz
    have hka := hks ka (List.mem_cons_self ..)
    refine Ok.bind (make_table w ((hT z (by omega)).mono hka.2) (Nat.zero_le _) (by omega) (by omega) hc) ?_
    intro t ⟨ht, hcan⟩
    refine (makeTables_spec w hc hk ks (z + 1) (r + ka) (Function.update T z t) (fun p hp => hks p (List.mem_cons_of_mem _ hp)) (by omega) (by omega) ?_).mono ?_
    · intro y hy
      by_cases h : y = z
      · rw [h, Function.update_self]; exact hcan k (hT z (by omega))
      · rw [Function.update_of_ne h]; exact hT y hy
    · intro T' ⟨h1, h2, h3⟩
      refine ⟨h1, fun y hy => ?_, ?_⟩
      · rw [h2 y (by omega), Function.update_of_ne (by omega)]
      · rw [List.zipIdx_cons, List.map_cons]
        refine ⟨hka.1, by omega, ?_, ?_, h3⟩
        · show IsTab A r c ka (T' z)
          rw [h2 z (by omega), Function.update_self]; exact ht
        · exact (h1 z (by omega)).mono hka.2

theorem zipIdx_fst {T : Nat → Tab} : ∀ (ks : List Nat) (z : Nat), ((ks.zipIdx z).map fun p => (p.1, T p.2)).map Prod.fst = ks
  | [], _ => rfl
  | k :: ks, z => by rw [List.zipIdx_cons, List.map_cons, List.map_cons, zipIdx_fst ks]

/-- What one round does to the rows outside the block. -/
def BlockUpd (A : Mzd) (r c kbar kk : Nat) (N : Mzd) : Prop := Sh A N ∧ ∀ a b, N.bit a b =
  (A.bit a b ^^ (decide ((a < r ∨ kbar = kk ∧ r + kbar ≤ a ∧ a < A.nrows) ∧ c ≤ b ∧ b < A.ncols) && xsum kbar fun l => A.bit a (c + l) && A.bit (r + l) b))

theorem BlockUpd.of {A N N' : Mzd} {r c kbar kk : Nat}
    (h1 : (kbar = kk ∧ Upd A r c kbar (r + kbar) A.nrows A N) ∨ (kbar ≠ kk ∧ N = A)) (h2 : Upd A r c kbar 0 r N N') : BlockUpd A r c kbar kk N' := by
  rcases h1 with ⟨hk, h1⟩ | ⟨hk, rfl⟩
  · refine ⟨h1.1.trans h2.1, fun a b => ?_⟩
    rw [h2.2]
    by_cases ha : a < r
    · have hrow : ∀ b, N.bit a b = A.bit a b := fun b => by rw [h1.2, decide_eq_false (by omega)]; simp
      rw [hrow, xsum_congr fun l _ => by rw [hrow], show decide ((0 ≤ a ∧ a < r) ∧ c ≤ b ∧ b < A.ncols) =
        decide ((a < r ∨ kbar = kk ∧ r + kbar ≤ a ∧ a < A.nrows) ∧ c ≤ b ∧ b < A.ncols) from decide_eq_decide.2 (by omega)]
    · rw [decide_eq_false (show ¬ ((0 ≤ a ∧ a < r) ∧ _) by omega), Bool.false_and, Bool.xor_false, h1.2,
        show decide ((r + kbar ≤ a ∧ a < A.nrows) ∧ c ≤ b ∧ b < A.ncols) =
        decide ((a < r ∨ kbar = kk ∧ r + kbar ≤ a ∧ a < A.nrows) ∧ c ≤ b ∧ b < A.ncols) from decide_eq_decide.2 (by omega)]
  · refine ⟨h2.1, fun a b => ?_⟩
    rw [h2.2, show decide ((0 ≤ a ∧ a < r) ∧ c ≤ b ∧ b < N.ncols) =
        decide ((a < r ∨ kbar = kk ∧ r + kbar ≤ a ∧ a < N.nrows) ∧ c ≤ b ∧ b < N.ncols) from decide_eq_decide.2 (by omega)]

theorem echUse_spec {A : Mzd} (w : A.Wf) {n k kk r c kbar : Nat} {T : Nat → Tab} (hn : 2 ≤ n) (hn' : n ≤ 6) (h1 : (n - 1) * k < kbar) (h2 : kbar ≤ n * k) (hk : k ≤ 10)
    (hc : c + kbar ≤ A.ncols) (hr : r + kbar ≤ A.nrows) (hT : ∀ z < 6, CanTab A k 0 (T z)) :
    Ok (echUse n kk A r c kbar T) fun y => BlockUpd A r c kbar kk y.1 ∧ ∀ z < 6, CanTab y.1 k 0 (y.2 z) := by
  obtain ⟨p1, p2, p3⟩ := parts_spec hn hn' h1 h2
  have hkb : 1 ≤ kbar := by omega
  have hkb' : kbar ≤ 64 := by
    have : n * k ≤ 6 * 10 := Nat.mul_le_mul hn' hk
    omega
  unfold echUse
  refine Ok.bind (makeTables_spec w (by omega) (by omega) (parts n kbar) 0 r T p3 (by omega) (by omega) hT) ?_
  intro T' ⟨q1, _, q3⟩
  have hsum : (((parts n kbar).zipIdx.map fun p => (p.1, T' p.2)).map Prod.fst).sum = kbar := by rw [zipIdx_fst, p2]
  refine Ok.bind (P := fun N => (kbar = kk ∧ Upd A r c kbar (r + kbar) A.nrows A N) ∨ (kbar ≠ kk ∧ N = A)) ?_ ?_
  · split
    · rename_i h
      exact (process_rows_n_spec w (Sh.refl A) q3 hsum hr (Nat.le_refl _) hkb hkb' hc).mono fun N h' => .inl ⟨h, h'⟩
    · rename_i h
      exact (Ok.pure_iff _ _).2 (.inr ⟨h, rfl⟩)
  · intro N hN
    have sh : Sh A N := by
      rcases hN with h | h
      · exact h.2.1
      · rw [h.2]; exact Sh.refl A
    refine Ok.bind (process_rows_n_spec (sh.wf w) sh q3 hsum (Nat.zero_le _) (by rw [sh.nrows]; omega) hkb hkb' hc) ?_
    intro N' hN'
    rw [Ok.pure_iff]
    exact ⟨BlockUpd.of hN hN', fun z hz => (q1 z hz).sh (sh.trans hN'.1)⟩

theorem echUpdate_spec {A : Mzd} (w : A.Wf) {k kk r c kbar : Nat} {T : Nat → Tab} (h2 : kbar ≤ 6 * k) (hk : k ≤ 10)
    (hc : c + kbar ≤ A.ncols) (hr : r + kbar ≤ A.nrows) (hrc : 0 < kbar → A.bit r c = true) (hT : ∀ z < 6, CanTab A k 0 (T z)) :
    Ok (echUpdate k kk A r c kbar T) fun y => BlockUpd A r c kbar kk y.1 ∧ ∀ z < 6, CanTab y.1 k 0 (y.2 z) := by
  unfold echUpdate
  split
  · exact echUse_spec w (by decide) (by decide) (by omega) (by omega) hk hc hr hT
  split
  · exact echUse_spec w (by decide) (by decide) (by omega) (by omega) hk hc hr hT
  split
  · exact echUse_spec w (by decide) (by decide) (by omega) (by omega) hk hc hr hT
  split
  · exact echUse_spec w (by decide) (by decide) (by omega) (by omega) hk hc hr hT
  split
  · exact echUse_spec w (by decide) (by decide) (by omega) (by omega) hk hc hr hT
  split
  · rename_i hkb
    refine Ok.bind (make_table w ((hT 0 (by decide)).mono (show kbar ≤ k by omega)) (Nat.zero_le _) (by omega) (by omega) (by omega)) ?_
    intro t ⟨ht, hcan⟩
    have hcan' := hcan kbar ((hT 0 (by decide)).mono (show kbar ≤ k by omega))
    refine Ok.bind (P := fun N => (kbar = kk ∧ Upd A r c kbar (r + kbar) A.nrows A N) ∨ (kbar ≠ kk ∧ N = A)) ?_ ?_
    · split
      · rename_i h
        exact (process_rows_spec w (Sh.refl A) ht hcan' hr (Nat.le_refl _) hkb (by omega) hc (hrc hkb)).mono fun N h' => .inl ⟨h, h'⟩
      · rename_i h
        exact (Ok.pure_iff _ _).2 (.inr ⟨h, rfl⟩)
    · intro N hN
      have sh : Sh A N := by
        rcases hN with h | h
        · exact h.2.1
        · rw [h.2]; exact Sh.refl A
      refine Ok.bind (process_rows_spec (sh.wf w) sh ht hcan' (Nat.zero_le _) (by rw [sh.nrows]; omega) hkb (by omega) hc (hrc hkb)) ?_
      intro N' hN'
      rw [Ok.pure_iff]
      refine ⟨BlockUpd.of hN hN', fun z hz => ?_⟩
      refine CanTab.sh ?_ (sh.trans hN'.1)
      show CanTab A k 0 (Function.update T 0 t z)
      by_cases h : z = 0
      · rw [h, Function.update_self]; exact hcan k (hT 0 (by decide))
      · rw [Function.update_of_ne h]; exact hT z hz
  · rw [Ok.pure_iff]
    refine ⟨⟨Sh.refl A, fun a b => ?_⟩, hT⟩
    rw [show kbar = 0 by omega]
    simp [xsum]

end WB.m4w
