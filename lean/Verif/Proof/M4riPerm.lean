import Verif.Model.M4riPerm
import Verif.SpecM4riPerm
import Verif.Proof.M4riRow
import Verif.Proof.M4riProd

/-!
# Permutations in M4RI (helper lemmas)
-/
namespace WB.m4w

open WB.cmp (Mem Mem2)

/-! ## Walks -/

theorem walk_nil (v : Nat → Nat) : Walk v [] = 1 := rfl

theorem walk_append (v : Nat → Nat) (l : List Nat) (i : Nat) : Walk v (l ++ [i]) = Walk v l * Equiv.swap i (v i) := by
  unfold Walk
  rw [List.map_append, List.prod_append]
  simp

theorem walk_cons (v : Nat → Nat) (l : List Nat) (i : Nat) : Walk v (i :: l) = Equiv.swap i (v i) * Walk v l := by
  unfold Walk
  rw [List.map_cons, List.prod_cons]

theorem walk_reverse (v : Nat → Nat) (l : List Nat) : Walk v l.reverse = (Walk v l)⁻¹ := by
  induction l with
  | nil => rw [List.reverse_nil, walk_nil, inv_one]
  | cons i l ih => rw [List.reverse_cons, walk_append, walk_cons, ih, mul_inv_rev, Equiv.swap_inv]

theorem walk_fix {v : Nat → Nat} {n : Nat} (l : List Nat) (h : ∀ i ∈ l, i < n ∧ v i < n) (j : Nat) (hj : n ≤ j) : Walk v l j = j := by
  induction l with
  | nil => rfl
  | cons i l ih =>
    rw [walk_cons, Equiv.Perm.mul_apply, ih fun i hi => h i (List.mem_cons_of_mem _ hi)]
    have := h i List.mem_cons_self
    exact Equiv.swap_apply_of_ne_of_ne (by omega) (by omega)

theorem walk_lt {v : Nat → Nat} {n : Nat} (l : List Nat) (h : ∀ i ∈ l, i < n ∧ v i < n) (j : Nat) (hj : j < n) : Walk v l j < n := by
  by_contra hc
  have h1 := walk_fix l h (Walk v l j) (by omega)
  have h2 := (Walk v l).injective h1
  omega

theorem range'_snoc (a n : Nat) : List.range' a (n + 1) = List.range' a n ++ [a + n] := by
  rw [List.range'_concat]; simp

/-! ## Exchanges of rows -/

theorem swap_bit (f : Nat → Nat → Bool) (p q n a b : Nat) : swapBit f p q n a b = if b < n then f (Equiv.swap p q a) b else f a b := by
  unfold swapBit
  refine if_congr Iff.rfl ?_ rfl
  by_cases h1 : a = p
  · rw [if_pos h1, h1, Equiv.swap_apply_left]
  · rw [if_neg h1]
    by_cases h2 : a = q
    · rw [if_pos h2, h2, Equiv.swap_apply_right]
    · rw [if_neg h2, Equiv.swap_apply_of_ne_of_ne h1 h2]

variable {A : Mzd} {P : Mem Nat}

theorem checked_eq {P : Mem Nat} {i : Nat} {f : Nat → C Mzd} (hi : i < P.size) (h : i ≤ P.cell i) : checked P i f = f (P.cell i) := by
  unfold checked
  rw [Mem.get_eq hi, C_ok_bind, if_neg (by omega)]

/-- One exchange of rows, after others. -/
theorem left_step {M N : Mzd} (w : M.Wf) (sh : Sh M N) {l : List Nat} {v : Nat → Nat} (hN : ∀ a b, N.bit a b = if b < M.ncols then M.bit (Walk v l a) b else M.bit a b) {i : Nat}
    (hi : i < M.nrows) (hv : v i < M.nrows) :
    Ok (mzd_row_swap N i (v i)) fun D => Sh M D ∧ ∀ a b, D.bit a b = if b < M.ncols then M.bit (Walk v (l ++ [i]) a) b else M.bit a b := by
  refine (row_swap (sh.wf w) (by rw [sh.nrows]; exact hi) (by rw [sh.nrows]; exact hv)).mono fun D ⟨sh', hD⟩ => ⟨sh.trans sh', fun a b => ?_⟩
  rw [hD, swap_bit, sh.ncols, walk_append]
  by_cases hb : b < M.ncols
  · rw [if_pos hb, if_pos hb, hN, if_pos hb]; rfl
  · rw [if_neg hb, if_neg hb, hN, if_neg hb]

theorem left_spec (w : A.Wf) (hv : ∀ i < min P.size A.nrows, i ≤ P.cell i ∧ P.cell i < A.nrows) :
    Ok (mzd_apply_p_left A P) fun D => Sh A D ∧ ∀ a b, D.bit a b = if b < A.ncols then A.bit (Walk P.cell (List.range (min P.size A.nrows)) a) b else A.bit a b := by
  unfold mzd_apply_p_left
  by_cases h0 : A.ncols = 0
  · rw [if_pos h0, Ok.pure_iff]
    exact ⟨Sh.refl A, fun a b => by rw [if_neg (by omega)]⟩
  rw [if_neg h0, List.range_eq_range']
  refine Ok.forUp (P := fun i N => Sh A N ∧ ∀ a b, N.bit a b = if b < A.ncols then A.bit (Walk P.cell (List.range' 0 i) a) b else A.bit a b) (Nat.zero_le _)
    ⟨Sh.refl A, fun a b => by rw [show List.range' 0 0 = [] from rfl, walk_nil]; simp⟩ ?_ (fun N h => h)
  intro i N _ hi ⟨sh, hN⟩
  rw [checked_eq (by omega) (hv i hi).1, range'_snoc, Nat.zero_add]
  exact left_step w sh hN (by omega) (hv i hi).2

theorem left_trans_spec (w : A.Wf) (hv : ∀ i < min P.size A.nrows, i ≤ P.cell i ∧ P.cell i < A.nrows) :
    Ok (mzd_apply_p_left_trans A P) fun D => Sh A D ∧ ∀ a b, D.bit a b = if b < A.ncols then A.bit (Walk P.cell (List.range (min P.size A.nrows)).reverse a) b else A.bit a b := by
  unfold mzd_apply_p_left_trans
  by_cases h0 : A.ncols = 0
  · rw [if_pos h0, Ok.pure_iff]
    exact ⟨Sh.refl A, fun a b => by rw [if_neg (by omega)]⟩
  rw [if_neg h0, List.range_eq_range']
  generalize hL : min P.size A.nrows = L at *
  refine Ok.forDown (P := fun i N => Sh A N ∧ ∀ a b, N.bit a b = if b < A.ncols then A.bit (Walk P.cell (List.range' i (L - i)).reverse a) b else A.bit a b) (Nat.zero_le _)
    ⟨Sh.refl A, fun a b => by rw [Nat.sub_self, show (List.range' L 0).reverse = [] from rfl, walk_nil]; simp⟩ ?_ (fun N h => h)
  intro i N _ hi ⟨sh, hN⟩
  rw [checked_eq (by omega) (hv i hi).1, show L - i = L - (i + 1) + 1 by omega, List.range'_succ, List.reverse_cons]
  exact left_step w sh hN (by omega) (hv i hi).2

/-! ## Columns: the array and the mask -/

theorem mem_put_eq {α : Type} {a : Mem α} {i : Nat} (x : α) (h : i < a.size) : a.put i x = .ok ⟨a.size, fun k => if k = i then x else a.cell k⟩ := if_pos h

theorem swapPerm_spec {p : Mem Nat} {i v : Nat} (hi : i < p.size) (hv : v < p.size) : Ok (swapPerm p i v) fun q => q.size = p.size ∧ ∀ j, q.cell j = p.cell (Equiv.swap i v j) := by
  unfold swapPerm
  rw [Mem.get_eq hi, C_ok_bind, Mem.get_eq hv, C_ok_bind, mem_put_eq _ hi, C_ok_bind, mem_put_eq (a := ⟨p.size, fun k => if k = i then p.cell v else p.cell k⟩) _ hv, Ok.ok_iff]
  refine ⟨rfl, fun j => ?_⟩
  show (if j = v then p.cell i else if j = i then p.cell v else p.cell j) = _
  by_cases h1 : j = v
  · rw [if_pos h1, h1, Equiv.swap_apply_right]
  · rw [if_neg h1]
    by_cases h2 : j = i
    · rw [if_pos h2, h2, Equiv.swap_apply_left]
    · rw [if_neg h2, Equiv.swap_apply_of_ne_of_ne h2 h1]

theorem iota_spec (n : Nat) : Ok (forUp 0 n (⟨n, fun _ => 0⟩ : Mem Nat) fun i perm => perm.put i i) fun q => q.size = n ∧ ∀ j < n, q.cell j = j := by
  refine Ok.forUp (P := fun i (q : Mem Nat) => q.size = n ∧ ∀ j < i, q.cell j = j) (Nat.zero_le _) ⟨rfl, fun j hj => by omega⟩ ?_ (fun q h => h)
  intro i q _ hi ⟨hs, hq⟩
  rw [mem_put_eq _ (by omega), Ok.ok_iff]
  refine ⟨hs, fun j hj => ?_⟩
  show (if j = i then i else q.cell j) = j
  by_cases h : j = i
  · rw [if_pos h, h]
  · rw [if_neg h]; exact hq j (by omega)

/-- The columns that are exchanged, in the order in which they are. -/
def order (length start_col : Nat) (notrans : Bool) : List Nat := if notrans then (List.range (length - start_col)).reverse else List.range' start_col (length - start_col)

theorem order_lt {length start_col : Nat} {notrans : Bool} {i : Nat} (h : i ∈ order length start_col notrans) : i < length := by
  unfold order at h
  cases notrans <;> simp at h <;> omega

theorem permArray_spec {n length start_col : Nat} {notrans : Bool} (hl : length ≤ n) (hP : length ≤ P.size) (hv : ∀ i < length, P.cell i < n) :
    Ok (permArray n length P start_col notrans) fun q => q.size = n ∧ ∀ j < n, q.cell j = Walk P.cell (order length start_col notrans) j := by
  unfold permArray
  refine Ok.bind (iota_spec n) fun p ⟨hs, hp⟩ => ?_
  have step : ∀ {l : List Nat} {q : Mem Nat} {i : Nat}, (q.size = n ∧ ∀ j < n, q.cell j = Walk P.cell l j) → i < length →
      Ok (do swapPerm q i (← P.get i)) fun q' => q'.size = n ∧ ∀ j < n, q'.cell j = Walk P.cell (l ++ [i]) j := by
    intro l q i ⟨h1, h2⟩ hi
    have := hv i hi
    rw [Mem.get_eq (by omega), C_ok_bind]
    refine (swapPerm_spec (by omega) (by omega)).mono fun q' ⟨h3, h4⟩ => ⟨h3.trans h1, fun j hj => ?_⟩
    have hlt : Equiv.swap i (P.cell i) j < n := by
      have := walk_lt (v := P.cell) (n := n) [i] (fun k hk => by rw [List.mem_singleton] at hk; subst hk; omega) j hj
      rwa [show Walk P.cell [i] = Equiv.swap i (P.cell i) by rw [walk_cons, walk_nil, mul_one]] at this
    rw [h4, walk_append, h2 _ hlt]
    rfl
  by_cases hc : start_col ≤ length
  · cases notrans
    · refine Ok.forUp (P := fun i (q : Mem Nat) => q.size = n ∧ ∀ j < n, q.cell j = Walk P.cell (List.range' start_col (i - start_col)) j) hc
        ⟨hs, fun j hj => by rw [Nat.sub_self, show List.range' start_col 0 = [] from rfl, walk_nil]; exact hp j hj⟩ ?_ (fun q h => h)
      intro i q h1 hi hq
      rw [show i + 1 - start_col = i - start_col + 1 by omega, range'_snoc, show start_col + (i - start_col) = i by omega]
      exact step hq hi
    · refine Ok.forUp (P := fun i (q : Mem Nat) => q.size = n ∧ ∀ j < n, q.cell j = Walk P.cell (List.range' (length - i) (i - start_col)).reverse j) hc
        ⟨hs, fun j hj => by rw [Nat.sub_self, show (List.range' (length - start_col) 0).reverse = [] from rfl, walk_nil]; exact hp j hj⟩ ?_ (fun q h => by
          rw [Nat.sub_self, ← List.range_eq_range'] at h; exact h)
      intro i q h1 hi hq
      rw [show length - (i + 1) = length - i - 1 by omega, show i + 1 - start_col = i - start_col + 1 by omega, List.range'_succ, show length - i - 1 + 1 = length - i by omega,
        List.reverse_cons]
      exact step hq (by omega)
  · rw [forUp_none (by omega), forUp_none (by omega)]
    have : order length start_col notrans = [] := by
      unfold order
      rw [show length - start_col = 0 by omega]
      cases notrans <;> rfl
    rw [this, walk_nil]
    cases notrans <;> exact ⟨p, rfl, hs, hp⟩


/-- Which bits of the matrix are kept. -/
def Kept (σ : Nat → Nat) (n j : Nat) : Prop := n ≤ j ∨ σ j = j

theorem writeMask_spec {perm : Mem Nat} {σ : Nat → Nat} (h0 : 0 < A.ncols) (hs : perm.size = A.ncols) (hp : ∀ j < A.ncols, perm.cell j = σ j) :
    Ok (writeMask A perm) fun m => m.size = A.width ∧ ∀ j, j < 64 * A.width → ((m.cell (j / 64)).getLsbD (j % 64) = true ↔ Kept σ A.ncols j) := by
  have hw : 0 < A.width := by unfold Mzd.width; omega
  have hw' : A.ncols ≤ 64 * A.width ∧ 64 * A.width < A.ncols + 64 := by unfold Mzd.width; omega
  unfold writeMask
  refine Ok.bind (P := fun m => m.size = A.width ∧ ∀ j, ((m.cell (j / 64)).getLsbD (j % 64) = true ↔ j < A.ncols ∧ σ j = j)) ?_ ?_
  · refine Ok.forUp (P := fun q (m : Mem Word) => m.size = A.width ∧ ∀ j, ((m.cell (j / 64)).getLsbD (j % 64) = true ↔ j < A.ncols ∧ j / 64 < q ∧ σ j = j)) (Nat.zero_le _)
      ⟨rfl, fun j => by simp⟩ ?_ (fun m ⟨h1, h2⟩ => ⟨h1, fun j => (h2 j).trans (by constructor <;> intro h <;> refine ⟨h.1, ?_⟩ <;> [exact h.2.2; exact ⟨by omega, h.2⟩])⟩)
    intro q m _ hq ⟨h1, h2⟩
    refine Ok.forUp (P := fun k (m : Mem Word) => m.size = A.width ∧ ∀ j, ((m.cell (j / 64)).getLsbD (j % 64) = true ↔ j < A.ncols ∧ j < 64 * q + k ∧ σ j = j)) (Nat.zero_le _)
      ⟨h1, fun j => (h2 j).trans (by constructor <;> intro h <;> exact ⟨h.1, by omega, h.2.2⟩)⟩ ?_
      (fun m ⟨h1, h2⟩ => ⟨h1, fun j => (h2 j).trans (by constructor <;> intro h <;> exact ⟨h.1, by omega, h.2.2⟩)⟩)
    intro k m _ hk ⟨h1, h2⟩
    have hqw : q < A.width := hq
    rw [Mem.get_eq (by omega), C_ok_bind, hp _ (by omega)]
    by_cases hc : σ (64 * q + k) = 64 * q + k
    · rw [if_pos hc, Mem.get_eq (by omega), C_ok_bind, mem_put_eq _ (by omega), Ok.ok_iff]
      refine ⟨h1, fun j => ?_⟩
      show ((if j / 64 = q then m.cell q ||| 1#64 <<< k else m.cell (j / 64)).getLsbD (j % 64) = true ↔ _)
      by_cases hj : j / 64 = q
      · rw [if_pos hj, BitVec.getLsbD_or, one_shift_bit _ _ (by omega), Bool.or_eq_true, ← hj, h2, decide_eq_true_iff]
        constructor
        · rintro (h | h)
          · exact ⟨h.1, by omega, h.2.2⟩
          · have : j = 64 * q + k := by omega
            subst this
            exact ⟨by omega, by omega, hc⟩
        · intro h
          by_cases hjk : j % 64 = k
          · exact Or.inr hjk
          · exact Or.inl ⟨h.1, by omega, h.2.2⟩
      · rw [if_neg hj, h2]
        constructor <;> intro h <;> exact ⟨h.1, by omega, h.2.2⟩
    · rw [if_neg hc, Ok.pure_iff]
      refine ⟨h1, fun j => (h2 j).trans ?_⟩
      constructor <;> intro h
      · exact ⟨h.1, by omega, h.2.2⟩
      · refine ⟨h.1, ?_, h.2.2⟩
        by_contra hcon
        have : j = 64 * q + k := by omega
        exact hc (this ▸ h.2.2)
  intro m ⟨h1, h2⟩
  rw [Mem.get_eq (by omega), C_ok_bind, mem_put_eq _ (by omega), Ok.ok_iff]
  refine ⟨h1, fun j hj => ?_⟩
  show ((if j / 64 = A.width - 1 then m.cell (A.width - 1) ||| ~~~A.high else m.cell (j / 64)).getLsbD (j % 64) = true ↔ _)
  unfold Kept
  by_cases hl : j / 64 = A.width - 1
  · rw [if_pos hl, BitVec.getLsbD_or, BitVec.getLsbD_not, high_bit A hl h0, decide_eq_true (show j % 64 < 64 by omega), ← hl, Bool.or_eq_true, h2]
    simp only [Bool.true_and, Bool.not_eq_true', decide_eq_false_iff_not]
    constructor
    · rintro (h | h)
      · exact Or.inr h.2
      · exact Or.inl (by omega)
    · rintro (h | h)
      · exact Or.inr (by omega)
      · by_cases hn : j < A.ncols
        · exact Or.inl ⟨hn, h⟩
        · exact Or.inr hn
  · rw [if_neg hl, h2]
    constructor
    · exact fun h => Or.inr h.2
    · rintro (h | h)
      · omega
      · exact ⟨by omega, h⟩

/-! ## Columns: the rows -/

theorem gather_bit (w : Word) (c k b : Nat) (hk : k < 64) (hc : c < 64) (hb : b < 64) : (((w &&& (1#64 <<< c)) >>> c) <<< k).getLsbD b = (decide (b = k) && w.getLsbD c) := by
  rw [BitVec.getLsbD_shiftLeft, BitVec.getLsbD_ushiftRight, BitVec.getLsbD_and]
  by_cases h : b = k
  · subst h
    rw [Nat.sub_self, Nat.add_zero, one_shift_bit _ _ hc]
    simp [hb]
  · by_cases h2 : b < k
    · simp [h, h2]
    · rw [one_shift_bit _ _ hc]
      rw [decide_eq_false (show ¬ (c + (b - k) = c) by omega), decide_eq_false h]
      simp

theorem gather_spec {B : Mzd} {perm : Mem Nat} {σ : Nat → Nat} {n : Nat} (wB : B.Wf) (hBn : B.ncols = n) (hs : perm.size = n) (hp : ∀ j < n, perm.cell j = σ j) (hσ : ∀ j < n, σ j < n)
    {i todo r : Nat} (ht : todo ≤ 64) (hi : i + todo ≤ n) (hr : r < B.nrows) :
    Ok (gatherBits B perm i todo r) fun x => ∀ b < 64, x.getLsbD b = (decide (b < todo) && B.bit r (σ (i + b))) := by
  unfold gatherBits
  refine Ok.forDown (P := fun k (x : Word) => ∀ b < 64, x.getLsbD b = (decide (k ≤ b ∧ b < todo) && B.bit r (σ (i + b)))) (Nat.zero_le _)
    (fun b _ => by rw [decide_eq_false (by omega)]; simp) ?_ (fun x h b hb => by rw [h b hb]; simp)
  intro k x _ hk hx
  have hlt := hσ (i + k) (by omega)
  have hat := wB.at hr (show σ (i + k) / 64 < B.width from lt_width (by omega))
  rw [Mem.get_eq (by omega), C_ok_bind, hp _ (by omega), get_eq hat, C_ok_bind, Ok.pure_iff]
  intro b hb
  rw [BitVec.getLsbD_or, gather_bit _ _ _ _ (by omega) (Nat.mod_lt _ (by omega)) hb, hx b hb]
  rw [bit_def B rfl]
  by_cases h : b = k
  · subst h
    rw [decide_eq_false (by omega), decide_eq_true (show b ≤ b ∧ b < todo by omega)]
    simp
  · rw [decide_eq_false h, show decide (k + 1 ≤ b ∧ b < todo) = decide (k ≤ b ∧ b < todo) from decide_eq_decide.2 (by omega)]
    simp


theorem takeRows_spec {B : Mzd} {mask : Mem Word} (wA : A.Wf) (wB : B.Wf) (hBn : B.ncols = A.ncols) (hm : mask.size = A.width) {i step : Nat} (hi : i + step ≤ A.nrows) (hst : step ≤ B.nrows) :
    Ok (takeRows A B mask i step) fun s => Sh A s.1 ∧ Sh B s.2 ∧
      (∀ a b, s.1.word a b = if i ≤ a ∧ a < i + step ∧ b < A.width then A.word a b &&& mask.cell b else A.word a b) ∧
      ∀ a < step, ∀ b < A.width, s.2.word a b = A.word (i + a) b := by
  have hw : B.width = A.width := by unfold Mzd.width; rw [hBn]
  unfold takeRows
  refine Ok.forUp (P := fun k (s : Mzd × Mzd) => Sh A s.1 ∧ Sh B s.2 ∧
      (∀ a b, s.1.word a b = if i ≤ a ∧ a < i + k ∧ b < A.width then A.word a b &&& mask.cell b else A.word a b) ∧
      ∀ a < k, ∀ b < A.width, s.2.word a b = A.word (i + a) b) (Nat.zero_le _)
    ⟨Sh.refl A, Sh.refl B, fun a b => by rw [if_neg (by omega)], fun a ha => by omega⟩ ?_ (fun s h => h)
  intro k s _ hk ⟨h1, h2, h3, h4⟩
  refine Ok.forUp (P := fun j (s : Mzd × Mzd) => Sh A s.1 ∧ Sh B s.2 ∧
      (∀ a b, s.1.word a b = if (i ≤ a ∧ a < i + k ∧ b < A.width) ∨ (a = i + k ∧ b < j) then A.word a b &&& mask.cell b else A.word a b) ∧
      (∀ a < k, ∀ b < A.width, s.2.word a b = A.word (i + a) b) ∧ ∀ b < j, s.2.word k b = A.word (i + k) b) (Nat.zero_le _)
    ⟨h1, h2, fun a b => (h3 a b).trans (if_congr (by omega) rfl rfl), h4, fun b hb => by omega⟩ ?_ ?_
  · intro j s _ hj ⟨h1, h2, h3, h4, h5⟩
    have tA := (h1.wf wA).at (i := i + k) (j := j) (by rw [h1.nrows]; omega) (by rw [h1.width]; omega)
    have tB := (h2.wf wB).at (i := k) (j := j) (by rw [h2.nrows]; omega) (by rw [h2.width]; omega)
    rw [get_eq tA, C_ok_bind, put_eq _ tB, C_ok_bind, C_ok_bind, Mem.get_eq (by omega), C_ok_bind, put_eq _ tA, C_ok_bind, Ok.pure_iff]
    have hold : s.1.word (i + k) j = A.word (i + k) j := by rw [h3, if_neg (by omega)]
    refine ⟨h1.trans (Sh.set _ _ _ _), h2.trans (Sh.set _ _ _ _), fun a b => ?_, fun a ha b hb => ?_, fun b hb => ?_⟩
    · rw [word_set, hold]
      by_cases hab : a = i + k ∧ b = j
      · rw [if_pos hab, if_pos (by omega), hab.1, hab.2]
      · rw [if_neg hab, h3]
        exact if_congr (by omega) rfl rfl
    · rw [word_set, if_neg (by omega)]; exact h4 a ha b hb
    · rw [word_set]
      by_cases hbj : b = j
      · rw [if_pos ⟨rfl, hbj⟩, hold, hbj]
      · rw [if_neg (by omega)]; exact h5 b (by omega)
  · intro s ⟨h1, h2, h3, h4, h5⟩
    refine ⟨h1, h2, fun a b => (h3 a b).trans (if_congr (by omega) rfl rfl), fun a ha b hb => ?_⟩
    by_cases hak : a = k
    · subst hak; exact h5 b hb
    · exact h4 a (by omega) b hb

theorem writeCol_spec {B : Mzd} {perm : Mem Nat} {mask : Mem Word} {σ : Nat → Nat} {start stop length : Nat} (wA : A.Wf) (wB : B.Wf) (hBn : B.ncols = A.ncols) (hm : mask.size = A.width)
    (hs : perm.size = A.ncols) (hp : ∀ j < A.ncols, perm.cell j = σ j) (hσ : ∀ j < A.ncols, σ j < A.ncols) (hl : length ≤ A.ncols) (hss : start ≤ stop) (hstop : stop ≤ A.nrows)
    (hBr : stop - start ≤ B.nrows) :
    Ok (mzd_write_col_to_rows_blockd A B perm mask start stop length) fun D => Sh A D ∧ ∀ a j, D.bit a j =
      if start ≤ a ∧ a < stop ∧ j / 64 < (length + 63) / 64 ∧ mask.cell (j / 64) ≠ ffff then (A.bit a j || (decide (j < length) && B.bit (a - start) (σ j))) else A.bit a j := by
  unfold mzd_write_col_to_rows_blockd
  refine Ok.forUp (P := fun q D => Sh A D ∧ ∀ a j, D.bit a j =
      if start ≤ a ∧ a < stop ∧ j / 64 < q ∧ mask.cell (j / 64) ≠ ffff then (A.bit a j || (decide (j < length) && B.bit (a - start) (σ j))) else A.bit a j) (Nat.zero_le _)
    ⟨Sh.refl A, fun a j => by rw [if_neg (by omega)]⟩ ?_ (fun D h => h)
  intro q D _ hq ⟨sh, hD⟩
  have hqw : q < A.width := by unfold Mzd.width; omega
  rw [Mem.get_eq (by omega), C_ok_bind]
  by_cases hf : mask.cell q = ffff
  · rw [if_pos hf, Ok.pure_iff]
    refine ⟨sh, fun a j => (hD a j).trans (if_congr ?_ rfl rfl)⟩
    constructor
    · rintro ⟨h1, h2, h3, h4⟩; exact ⟨h1, h2, by omega, h4⟩
    · rintro ⟨h1, h2, h3, h4⟩
      refine ⟨h1, h2, ?_, h4⟩
      by_contra hc
      exact h4 ((show j / 64 = q by omega) ▸ hf)
  rw [if_neg hf]
  refine Ok.forUp (P := fun r D => Sh A D ∧ ∀ a j, D.bit a j =
      if start ≤ a ∧ a < stop ∧ (j / 64 < q ∨ (j / 64 = q ∧ a < r)) ∧ mask.cell (j / 64) ≠ ffff then (A.bit a j || (decide (j < length) && B.bit (a - start) (σ j))) else A.bit a j) hss
    ⟨sh, fun a j => (hD a j).trans (if_congr ?_ rfl rfl)⟩ ?_ (fun D ⟨h1, h2⟩ => ⟨h1, fun a j => (h2 a j).trans (if_congr ?_ rfl rfl)⟩)
  · constructor <;> rintro ⟨h1, h2, h3, h4⟩ <;> exact ⟨h1, h2, by omega, h4⟩
  · intro r D hr1 hr2 ⟨sh, hD⟩
    refine Ok.bind (gather_spec wB hBn hs hp hσ (Nat.min_le_left _ _) (by omega) (by omega)) fun x hx => ?_
    have t := (sh.wf wA).at (i := r) (j := q) (by rw [sh.nrows]; omega) (by rw [sh.width]; omega)
    rw [get_eq t, C_ok_bind, put_eq _ t, Ok.ok_iff]
    refine ⟨sh.trans (Sh.set _ _ _ _), fun a j => ?_⟩
    rw [bit_set]
    by_cases haj : a = r ∧ j / 64 = q
    · obtain ⟨rfl, hj⟩ := haj
      rw [if_pos ⟨rfl, hj⟩, if_pos ⟨by omega, by omega, by omega, by rw [hj]; exact hf⟩, BitVec.getLsbD_or, bit_def D hj, hD, if_neg (by omega), hx _ (Nat.mod_lt _ (by omega)),
        show 64 * q + j % 64 = j by omega, show decide (j % 64 < min 64 (length - 64 * q)) = decide (j < length) from decide_eq_decide.2 (by omega)]
    · rw [if_neg haj, hD]
      refine if_congr ?_ rfl rfl
      constructor <;> rintro ⟨h1, h2, h3, h4⟩ <;> exact ⟨h1, h2, by omega, h4⟩
  · constructor <;> rintro ⟨h1, h2, h3, h4⟩ <;> exact ⟨h1, h2, by omega, h4⟩

/-- The rows from `lo` on and before `hi` after the exchanges. -/
def rightBit (M : Mzd) (σ : Nat → Nat) (len lo hi a j : Nat) : Bool :=
  if lo ≤ a ∧ a < hi ∧ j < M.ncols then (if j < len ∨ σ j = j then M.bit a (σ j) else false) else M.bit a j

theorem permRows_spec {M : Mzd} {perm : Mem Nat} {mask : Mem Word} {σ : Nat → Nat} {length start : Nat} (w : M.Wf) (hm : mask.size = M.width)
    (hmask : ∀ j, j < 64 * M.width → ((mask.cell (j / 64)).getLsbD (j % 64) = true ↔ Kept σ M.ncols j))
    (hs : perm.size = M.ncols) (hp : ∀ j < M.ncols, perm.cell j = σ j) (hσ : ∀ j < M.ncols, σ j < M.ncols) (hl : length ≤ M.ncols) : ∀ (fuel i step : Nat) (A B : Mzd),
    M.nrows - i < fuel → start ≤ i → i ≤ M.nrows → Sh M A → (∀ a j, A.bit a j = rightBit M σ length start i a j) → B.Wf → B.ncols = M.ncols → 0 < step → step ≤ B.nrows →
    Ok (permRows perm mask length fuel i step A B) fun D => Sh M D ∧ ∀ a j, D.bit a j = rightBit M σ length start M.nrows a j := by
  intro fuel
  induction fuel with
  | zero => intro i step A B h; omega
  | succ fuel ih =>
    intro i step A B hf hsi hi sh hA wB hBn h0 hst
    rw [permRows, sh.nrows]
    by_cases hc : i < M.nrows
    · rw [if_pos hc]
      simp only []
      have wA := sh.wf w
      refine Ok.bind (takeRows_spec wA wB (hBn.trans sh.ncols.symm) (hm.trans sh.width.symm) (by rw [sh.nrows]; omega) (by omega)) fun s ⟨s1, s2, hw1, hw2⟩ => ?_
      have e1 := sh.trans s1
      refine Ok.bind (writeCol_spec (σ := σ) (e1.wf w) (s2.wf wB) (by rw [s2.ncols, hBn, e1.ncols]) (hm.trans e1.width.symm) (by rw [e1.ncols]; exact hs) (by rw [e1.ncols]; exact hp)
        (by rw [e1.ncols]; exact hσ) (by rw [e1.ncols]; exact hl) (by omega) (by rw [e1.nrows]; omega) (by rw [s2.nrows]; omega)) fun D ⟨sD, hD⟩ => ?_
      have key : ∀ a j, D.bit a j = rightBit M σ length start (i + min step (M.nrows - i)) a j := by
        intro a j
        have hs1 : s.1.bit a j = if i ≤ a ∧ a < i + min step (M.nrows - i) ∧ j / 64 < M.width then (M.bit a j && (mask.cell (j / 64)).getLsbD (j % 64)) else A.bit a j := by
          unfold Mzd.bit
          rw [hw1, sh.width]
          by_cases h : i ≤ a ∧ a < i + min step (M.nrows - i) ∧ j / 64 < M.width
          · rw [if_pos h, if_pos h, BitVec.getLsbD_and, bit_def A rfl, hA]
            unfold rightBit
            rw [if_neg (by omega)]
            rfl
          · rw [if_neg h, if_neg h]
        rw [hD, hs1]
        by_cases ha : i ≤ a ∧ a < i + min step (M.nrows - i)
        · by_cases hjw : j / 64 < M.width
          · have hs2 : ∀ j' < M.ncols, s.2.bit (a - i) j' = M.bit a j' := by
              intro j' hj'
              unfold Mzd.bit
              rw [hw2 _ (by omega) _ (by rw [sh.width]; exact lt_width hj'), show i + (a - i) = a by omega, bit_def A rfl, hA]
              unfold rightBit
              rw [if_neg (by omega)]
              rfl
            have hk := hmask j (by omega)
            rw [if_pos (show i ≤ a ∧ a < i + min step (M.nrows - i) ∧ j / 64 < M.width by omega)]
            unfold rightBit
            by_cases hj : j < M.ncols
            · rw [if_pos (show start ≤ a ∧ a < i + min step (M.nrows - i) ∧ j < M.ncols by omega)]
              unfold Kept at hk
              by_cases hfix : σ j = j
              · rw [hk.2 (Or.inr hfix), if_pos (Or.inr hfix), Bool.and_true, hs2 _ (hσ j hj), hfix]
                split <;> simp
              · have hk' : (mask.cell (j / 64)).getLsbD (j % 64) = false := by
                  rw [Bool.eq_false_iff]; intro h; rcases hk.1 h with h | h
                  · omega
                  · exact hfix h
                have hne : mask.cell (j / 64) ≠ ffff := by
                  intro h
                  rw [h, show ffff = BitVec.allOnes 64 by decide, BitVec.getLsbD_allOnes] at hk'
                  simp at hk'
                  omega
                rw [hk', Bool.and_false, Bool.false_or, hs2 _ (hσ j hj)]
                by_cases hjl : j < length
                · rw [if_pos ⟨by omega, by omega, by omega, hne⟩, if_pos (Or.inl hjl), decide_eq_true hjl, Bool.true_and]
                · rw [if_neg (show ¬ (j < length ∨ σ j = j) by rintro (h | h); exacts [hjl h, hfix h]), decide_eq_false hjl, Bool.false_and]
                  split <;> rfl
            · rw [if_neg (show ¬ (start ≤ a ∧ a < i + min step (M.nrows - i) ∧ j < M.ncols) by omega), hk.2 (Or.inl (by omega)), decide_eq_false (show ¬ j < length by omega)]
              simp
          · have hj : ¬ j < M.ncols := fun h => hjw (lt_width h)
            rw [if_neg (show ¬ (i ≤ a ∧ a < i + min step (M.nrows - i) ∧ j / 64 < (length + 63) / 64 ∧ _) from fun h => hjw (by
              have := h.2.2.1
              unfold Mzd.width
              omega)), if_neg (by omega), hA]
            unfold rightBit
            rw [if_neg (by omega), if_neg (by omega)]
        · rw [if_neg (fun h => ha ⟨h.1, h.2.1⟩), if_neg (fun h => ha ⟨h.1, h.2.1⟩), hA]
          unfold rightBit
          refine if_congr ?_ rfl rfl
          omega
      exact ih _ _ _ _ (by omega) (by omega) (by omega) (e1.trans sD) key (s2.wf wB) (s2.ncols.trans hBn) (by omega) (by rw [s2.nrows]; omega)
    · rw [if_neg hc, Ok.pure_iff]
      rw [show i = M.nrows by omega] at hA
      exact ⟨sh, hA⟩

/-- What `_mzd_apply_p_right_even` does. -/
theorem right_even_spec (l1 : Nat) (w : A.Wf) (h0 : 0 < A.ncols) {start_row start_col : Nat} {notrans : Bool} (hr : start_row ≤ A.nrows) (hv : ∀ i < min P.size A.ncols, P.cell i < A.ncols) :
    Ok (_mzd_apply_p_right_even l1 A P start_row start_col notrans) fun D => Sh A D ∧
      ∀ a j, D.bit a j = rightBit A (Walk P.cell (order (min P.size A.ncols) start_col notrans)) (min P.size A.ncols) start_row A.nrows a j := by
  unfold _mzd_apply_p_right_even
  by_cases hz : A.nrows - start_row = 0
  · rw [if_pos hz, Ok.pure_iff]
    refine ⟨Sh.refl A, fun a j => ?_⟩
    unfold rightBit
    rw [if_neg (by omega)]
  rw [if_neg hz, if_neg (by unfold Mzd.width; omega)]
  simp only []
  refine Ok.bind (permArray_spec (start_col := start_col) (notrans := notrans) (Nat.min_le_right _ _) (Nat.min_le_left _ _) hv) fun perm ⟨hs, hp⟩ => ?_
  refine Ok.bind (writeMask_spec h0 hs hp) fun mask ⟨hm, hmask⟩ => ?_
  refine permRows_spec w hm hmask hs hp ?_ (Nat.min_le_right _ _) _ _ _ _ _ (by omega) (Nat.le_refl _) hr (Sh.refl A) ?_ (init_wf _ _) rfl (by omega) (Nat.le_refl _)
  · exact fun j hj => walk_lt _ (fun i hi => ⟨by have := order_lt hi; omega, hv i (order_lt hi)⟩) j hj
  · intro a j
    unfold rightBit
    rw [if_neg (by omega)]

/-! ## Columns one by one -/

theorem two_words (U V : Word) {lo off b : Nat} (ho : lo + off < 64) (hb : b < 64) :
    (U ^^^ ((U ^^^ (V >>> off)) &&& 1#64 <<< lo)).getLsbD b = (if b = lo then V.getLsbD (lo + off) else U.getLsbD b) ∧
    (V ^^^ (((U ^^^ (V >>> off)) &&& 1#64 <<< lo) <<< off)).getLsbD b = if b = lo + off then U.getLsbD lo else V.getLsbD b := by
  constructor
  · rw [BitVec.getLsbD_xor, BitVec.getLsbD_and, BitVec.getLsbD_xor, BitVec.getLsbD_ushiftRight, one_shift_bit _ _ (by omega)]
    by_cases h : b = lo
    · rw [if_pos h, h, Nat.add_comm off lo]
      cases U.getLsbD lo <;> cases V.getLsbD (lo + off) <;> simp
    · rw [if_neg h, decide_eq_false h]; simp
  · rw [BitVec.getLsbD_xor, BitVec.getLsbD_shiftLeft, BitVec.getLsbD_and, BitVec.getLsbD_xor, BitVec.getLsbD_ushiftRight, one_shift_bit _ _ (by omega)]
    by_cases h : b = lo + off
    · rw [if_pos h, h, Nat.add_sub_cancel, Nat.add_comm off lo, decide_eq_true ho, decide_eq_false (show ¬ lo + off < off by omega)]
      cases U.getLsbD lo <;> cases V.getLsbD (lo + off) <;> simp
    · rw [if_neg h]
      by_cases h2 : b < off
      · simp [h2]
      · rw [decide_eq_false (show ¬ (b - off = lo) by omega)]; simp

theorem one_word (W : Word) {lo off b : Nat} (h0 : 0 < off) (ho : lo + off < 64) (hb : b < 64) :
    (W ^^^ (((W ^^^ (W >>> off)) &&& 1#64 <<< lo) ||| (((W ^^^ (W >>> off)) &&& 1#64 <<< lo) <<< off))).getLsbD b =
      if b = lo then W.getLsbD (lo + off) else if b = lo + off then W.getLsbD lo else W.getLsbD b := by
  have h1 := (two_words W W ho hb).1
  have h2 := (two_words W W ho hb).2
  rw [BitVec.getLsbD_xor] at h1 h2
  rw [BitVec.getLsbD_xor, BitVec.getLsbD_or]
  generalize (((W ^^^ (W >>> off)) &&& 1#64 <<< lo).getLsbD b) = p at *
  generalize ((((W ^^^ (W >>> off)) &&& 1#64 <<< lo) <<< off).getLsbD b) = q at *
  by_cases hlo : b = lo
  · rw [if_pos hlo] at h1 ⊢
    rw [if_neg (by omega)] at h2
    rw [← h1]
    have : q = false := by revert h2; cases W.getLsbD b <;> cases q <;> simp
    rw [this, Bool.or_false]
  · rw [if_neg hlo] at h1 ⊢
    have : p = false := by revert h1; cases W.getLsbD b <;> cases p <;> simp
    rw [this, Bool.false_or, h2]

theorem bit_split (M : Mzd) (a j : Nat) : M.bit a j = (M.word a (j / 64)).getLsbD (j % 64) := rfl

theorem colSwapRow_spec (w : A.Wf) {x y r : Nat} (hx : x < A.ncols) (hy : y < A.ncols) (hne : x ≠ y) (hr : r < A.nrows) :
    Ok (colSwapRow A x y r) fun D => Sh A D ∧ ∀ a j, D.bit a j = if a = r then A.bit a (Equiv.swap x y j) else A.bit a j := by
  have hsw : ∀ j, Equiv.swap x y j = if j = x then y else if j = y then x else j := fun j => Equiv.swap_apply_def x y j
  have tx := w.at hr (lt_width hx)
  have ty := w.at hr (lt_width hy)
  unfold colSwapRow
  simp only []
  by_cases hq : x / 64 = y / 64
  · rw [if_pos hq, get_eq tx, C_ok_bind, put_eq _ tx, Ok.ok_iff]
    refine ⟨Sh.set _ _ _ _, fun a j => ?_⟩
    rw [bit_set]
    by_cases ha : a = r
    · subst ha
      rw [if_pos rfl, hsw]
      by_cases hj : j / 64 = x / 64
      · rw [if_pos ⟨rfl, hj⟩, one_word _ (by omega) (by omega) (by omega)]
        rcases Nat.lt_or_gt_of_ne (show x % 64 ≠ y % 64 by omega) with h | h
        · rw [show min (x % 64) (y % 64) = x % 64 by omega, show x % 64 + (max (x % 64) (y % 64) - x % 64) = y % 64 by omega]
          by_cases h1 : j = x
          · rw [if_pos h1, if_pos (by omega), bit_split, hq]
          · rw [if_neg h1, if_neg (by omega)]
            by_cases h2 : j = y
            · rw [if_pos h2, if_pos (by omega), bit_split]
            · rw [if_neg h2, if_neg (by omega), bit_split, hj]
        · rw [show min (x % 64) (y % 64) = y % 64 by omega, show y % 64 + (max (x % 64) (y % 64) - y % 64) = x % 64 by omega]
          by_cases h1 : j = x
          · rw [if_pos h1, if_neg (by omega), if_pos (by omega), bit_split, hq]
          · rw [if_neg h1]
            by_cases h2 : j = y
            · rw [if_pos h2, if_pos (by omega), bit_split]
            · rw [if_neg h2, if_neg (by omega), if_neg (by omega), bit_split, hj]
      · rw [if_neg (fun h => hj h.2), if_neg (by rintro rfl; exact hj rfl), if_neg (by rintro rfl; exact hj hq.symm)]
    · rw [if_neg (fun h => ha h.1), if_neg ha]
  · rw [if_neg hq]
    have key : ∀ x y, x < A.ncols → y < A.ncols → x / 64 ≠ y / 64 → x % 64 ≤ y % 64 →
        Ok (do
          let X := (((← A.get r (x / 64)) ^^^ ((← A.get r (y / 64)) >>> (y % 64 - x % 64))) &&& 1#64 <<< (x % 64) : Word)
          let M ← A.put r (x / 64) ((← A.get r (x / 64)) ^^^ X)
          M.put r (y / 64) ((← M.get r (y / 64)) ^^^ (X <<< (y % 64 - x % 64))))
        fun D => Sh A D ∧ ∀ a j, D.bit a j = if a = r then A.bit a (if j = x then y else if j = y then x else j) else A.bit a j := by
      intro x y hx hy hq hle
      have tx := w.at hr (lt_width hx)
      have ty := w.at hr (lt_width hy)
      rw [get_eq tx, C_ok_bind, get_eq ty, C_ok_bind, C_ok_bind, put_eq _ tx, C_ok_bind]
      generalize hX : (((A.word r (x / 64)) ^^^ ((A.word r (y / 64)) >>> (y % 64 - x % 64))) &&& 1#64 <<< (x % 64) : Word) = X
      have sh := Sh.set A r (x / 64) (A.word r (x / 64) ^^^ X)
      have ty' := (sh.wf w).at (i := r) (j := y / 64) hr (by rw [sh.width]; exact lt_width hy)
      rw [get_eq ty', C_ok_bind, put_eq _ ty', Ok.ok_iff]
      refine ⟨sh.trans (Sh.set _ _ _ _), fun a j => ?_⟩
      rw [bit_set, bit_set, word_set, if_neg (show ¬ (r = r ∧ y / 64 = x / 64) by omega)]
      have h1 := (two_words (A.word r (x / 64)) (A.word r (y / 64)) (lo := x % 64) (off := y % 64 - x % 64) (by omega) (Nat.mod_lt j (by omega : 0 < 64))).1
      have h2 := (two_words (A.word r (x / 64)) (A.word r (y / 64)) (lo := x % 64) (off := y % 64 - x % 64) (by omega) (Nat.mod_lt j (by omega : 0 < 64))).2
      rw [hX, show x % 64 + (y % 64 - x % 64) = y % 64 by omega] at h1 h2
      by_cases ha : a = r
      · subst ha
        rw [if_pos rfl]
        by_cases hj : j / 64 = y / 64
        · rw [if_pos ⟨rfl, hj⟩, h2, if_neg (show ¬ j = x by rintro rfl; exact hq hj)]
          by_cases hjy : j = y
          · rw [if_pos hjy, if_pos (by omega)]; rfl
          · rw [if_neg hjy, if_neg (by omega), bit_split, hj]
        · rw [if_neg (fun h => hj h.2)]
          by_cases hj' : j / 64 = x / 64
          · rw [if_pos ⟨rfl, hj'⟩, h1]
            by_cases hjx : j = x
            · rw [if_pos hjx, if_pos (by omega)]; rfl
            · rw [if_neg hjx, if_neg (by omega), if_neg (by rintro rfl; exact hj rfl), bit_split, hj']
          · rw [if_neg (fun h => hj' h.2), if_neg (by rintro rfl; exact hj' rfl), if_neg (by rintro rfl; exact hj rfl)]
      · rw [if_neg (fun h => ha h.1), if_neg (fun h => ha h.1), if_neg ha]
    by_cases hle : x % 64 ≤ y % 64
    · rw [show min (x % 64) (y % 64) = x % 64 by omega, show max (x % 64) (y % 64) = y % 64 by omega, if_pos rfl, if_pos rfl]
      refine (key x y hx hy hq hle).mono fun D ⟨h1, h2⟩ => ⟨h1, fun a j => ?_⟩
      rw [h2, hsw]
    · rw [show min (x % 64) (y % 64) = y % 64 by omega, show max (x % 64) (y % 64) = x % 64 by omega, if_neg (by omega), if_neg (by omega)]
      refine (key y x hy hx (Ne.symm hq) (by omega)).mono fun D ⟨h1, h2⟩ => ⟨h1, fun a j => ?_⟩
      rw [h2, Equiv.swap_comm, Equiv.swap_apply_def]

/-- Columns exchanged in some rows. -/
theorem colSwap_spec (w : A.Wf) {x y lo hi : Nat} (hx : x < A.ncols) (hy : y < A.ncols) (hh : hi ≤ A.nrows) :
    Ok (mzd_col_swap_in_rows A x y lo hi) fun D => Sh A D ∧ ∀ a j, D.bit a j = if lo ≤ a ∧ a < hi then A.bit a (Equiv.swap x y j) else A.bit a j := by
  unfold mzd_col_swap_in_rows
  by_cases hne : x = y
  · rw [if_pos hne, Ok.pure_iff, hne, Equiv.swap_self]
    exact ⟨Sh.refl A, fun a j => by simp⟩
  rw [if_neg hne]
  by_cases hlh : lo ≤ hi
  · refine Ok.forUp (P := fun r D => Sh A D ∧ ∀ a j, D.bit a j = if lo ≤ a ∧ a < r then A.bit a (Equiv.swap x y j) else A.bit a j) hlh
      ⟨Sh.refl A, fun a j => by rw [if_neg (by omega)]⟩ ?_ (fun D h => h)
    intro r D _ hr ⟨sh, hD⟩
    refine (colSwapRow_spec (sh.wf w) (by rw [sh.ncols]; exact hx) (by rw [sh.ncols]; exact hy) hne (by rw [sh.nrows]; omega)).mono fun E ⟨sE, hE⟩ => ⟨sh.trans sE, fun a j => ?_⟩
    rw [hE]
    by_cases ha : a = r
    · rw [if_pos ha, if_pos (by omega), hD, if_neg (by omega)]
    · rw [if_neg ha, hD]
      exact if_congr (by omega) rfl rfl
  · rw [forUp_none (by omega), Ok.pure_iff]
    exact ⟨Sh.refl A, fun a j => by rw [if_neg (by omega)]⟩

/-- One exchange of columns after others. -/
theorem col_step {A N : Mzd} (w : A.Wf) (sh : Sh A N) {i lo hi : Nat} (hi' : hi ≤ A.nrows) (hc : i < A.ncols) (hP : i < P.size) (hv : i ≤ P.cell i ∧ P.cell i < A.ncols) :
    Ok (checked P i fun v => mzd_col_swap_in_rows N i v lo hi) fun D => Sh A D ∧
      ∀ a j, D.bit a j = if lo ≤ a ∧ a < hi then N.bit a (Equiv.swap i (P.cell i) j) else N.bit a j := by
  rw [checked_eq hP hv.1]
  refine (colSwap_spec (sh.wf w) (by rw [sh.ncols]; exact hc) (by rw [sh.ncols]; exact hv.2) (by rw [sh.nrows]; exact hi')).mono fun D ⟨h1, h2⟩ => ⟨sh.trans h1, h2⟩

theorem cols_up (w : A.Wf) {n lo T : Nat} (hn : n ≤ A.ncols) (hP : n ≤ P.size) (hv : ∀ i < n, i ≤ P.cell i ∧ P.cell i < A.ncols) :
    Ok (forUp 0 n A fun i A => checked P i fun v => mzd_col_swap_in_rows A i v lo (min T A.nrows)) fun D => Sh A D ∧
      ∀ a j, D.bit a j = if lo ≤ a ∧ a < min T A.nrows then A.bit a (Walk P.cell (List.range n) j) else A.bit a j := by
  rw [List.range_eq_range']
  refine Ok.forUp (P := fun i N => Sh A N ∧ ∀ a j, N.bit a j = if lo ≤ a ∧ a < min T A.nrows then A.bit a (Walk P.cell (List.range' 0 i) j) else A.bit a j) (Nat.zero_le _)
    ⟨Sh.refl A, fun a b => by rw [show List.range' 0 0 = [] from rfl, walk_nil]; simp⟩ ?_ (fun N h => h)
  intro i N _ hi ⟨sh, hN⟩
  rw [sh.nrows]
  refine (col_step w sh (Nat.min_le_right _ _) (by omega) (by omega) (hv i hi)).mono fun D ⟨h1, h2⟩ => ⟨h1, fun a j => ?_⟩
  rw [h2, range'_snoc, Nat.zero_add, walk_append, hN, hN]
  split
  · rfl
  · rfl

theorem cols_down (w : A.Wf) {n lo T : Nat} (hn : n ≤ A.ncols) (hP : n ≤ P.size) (hv : ∀ i < n, i ≤ P.cell i ∧ P.cell i < A.ncols) :
    Ok (forDown n 0 A fun i A => checked P i fun v => mzd_col_swap_in_rows A i v lo (min T A.nrows)) fun D => Sh A D ∧
      ∀ a j, D.bit a j = if lo ≤ a ∧ a < min T A.nrows then A.bit a (Walk P.cell (List.range n).reverse j) else A.bit a j := by
  rw [List.range_eq_range']
  refine Ok.forDown (P := fun i N => Sh A N ∧ ∀ a j, N.bit a j = if lo ≤ a ∧ a < min T A.nrows then A.bit a (Walk P.cell (List.range' i (n - i)).reverse j) else A.bit a j) (Nat.zero_le _)
    ⟨Sh.refl A, fun a b => by rw [Nat.sub_self, show (List.range' n 0).reverse = [] from rfl, walk_nil]; simp⟩ ?_ (fun N h => h)
  intro i N _ hi ⟨sh, hN⟩
  rw [sh.nrows]
  refine (col_step w sh (Nat.min_le_right _ _) (by omega) (by omega) (hv i hi)).mono fun D ⟨h1, h2⟩ => ⟨h1, fun a j => ?_⟩
  rw [h2, show n - i = n - (i + 1) + 1 by omega, List.range'_succ, List.reverse_cons, walk_append, hN, hN]
  split
  · rfl
  · rfl

theorem cols_tri (w : A.Wf) {n lo T : Nat} (hn : n ≤ A.ncols) (hP : n ≤ P.size) (hv : ∀ i < n, i ≤ P.cell i ∧ P.cell i < A.ncols) :
    Ok (forUp 0 n A fun i A => checked P i fun v => mzd_col_swap_in_rows A i v lo (min (min T A.nrows) i)) fun D => Sh A D ∧
      ∀ a j, D.bit a j = if lo ≤ a ∧ a < min T A.nrows then A.bit a (Walk P.cell (List.range' (a + 1) (n - (a + 1))) j) else A.bit a j := by
  refine Ok.forUp (P := fun i N => Sh A N ∧ ∀ a j, N.bit a j = if lo ≤ a ∧ a < min T A.nrows then A.bit a (Walk P.cell (List.range' (a + 1) (i - (a + 1))) j) else A.bit a j) (Nat.zero_le _)
    ⟨Sh.refl A, fun a b => by rw [Nat.zero_sub, show List.range' (a + 1) 0 = [] from rfl, walk_nil]; simp⟩ ?_ (fun N h => h)
  intro i N _ hi ⟨sh, hN⟩
  rw [sh.nrows]
  refine (col_step w sh (show min (min T A.nrows) i ≤ A.nrows by omega) (by omega) (by omega) (hv i hi)).mono fun D ⟨h1, h2⟩ => ⟨h1, fun a j => ?_⟩
  rw [h2, hN, hN]
  by_cases ha : a < i
  · rw [show i + 1 - (a + 1) = i - (a + 1) + 1 by omega, range'_snoc, show a + 1 + (i - (a + 1)) = i by omega, walk_append]
    by_cases h : lo ≤ a ∧ a < min T A.nrows
    · rw [if_pos (by omega), if_pos h, if_pos h]; rfl
    · rw [if_neg (by omega), if_neg h, if_neg h]
  · rw [if_neg (by omega), show i + 1 - (a + 1) = 0 by omega, show i - (a + 1) = 0 by omega]

theorem rowBlocks_spec (w : A.Wf) {step : Nat} (h0 : 0 < step) {f : Nat → Mzd → C Mzd} {σ : Nat → Nat → Nat}
    (hf : ∀ q N, q * step < A.nrows → Sh A N → Ok (f q N) fun D => Sh A D ∧
      ∀ a j, D.bit a j = if q * step ≤ a ∧ a < min (q * step + step) A.nrows then N.bit a (σ a j) else N.bit a j) :
    Ok (forUp 0 ((A.nrows + step - 1) / step) A f) fun D => Sh A D ∧ ∀ a j, D.bit a j = if a < A.nrows then A.bit a (σ a j) else A.bit a j := by
  refine Ok.forUp (P := fun q N => Sh A N ∧ ∀ a j, N.bit a j = if a < min (q * step) A.nrows then A.bit a (σ a j) else A.bit a j) (Nat.zero_le _)
    ⟨Sh.refl A, fun a j => by rw [if_neg (by omega)]⟩ ?_ ?_
  · intro q N _ hq ⟨sh, hN⟩
    have hlt : q * step < A.nrows := by
      have := (Nat.le_div_iff_mul_le h0).1 (show q + 1 ≤ (A.nrows + step - 1) / step from hq)
      rw [Nat.add_mul] at this; omega
    refine (hf q N hlt sh).mono fun D ⟨h1, h2⟩ => ⟨h1, fun a j => ?_⟩
    rw [h2, hN, hN, show (q + 1) * step = q * step + step by rw [Nat.add_mul, Nat.one_mul]]
    by_cases ha : a < q * step
    · rw [if_neg (by omega), if_pos (by omega), if_pos (by omega)]
    · by_cases hb : a < min (q * step + step) A.nrows
      · rw [if_pos (by omega), if_neg (by omega), if_pos hb]
      · rw [if_neg (by omega), if_neg (by omega), if_neg hb]
  · intro D ⟨sh, hD⟩
    refine ⟨sh, fun a j => ?_⟩
    have : A.nrows ≤ (A.nrows + step - 1) / step * step := by
      have h1 := Nat.div_add_mod (A.nrows + step - 1) step
      have h2 := Nat.mod_lt (A.nrows + step - 1) h0
      rw [Nat.mul_comm] at h1; omega
    rw [hD, Nat.min_eq_right this]

theorem slow_trans_spec (l1 : Nat) (w : A.Wf) (h0 : 0 < A.ncols) (hv : ∀ i < min P.size A.ncols, i ≤ P.cell i ∧ P.cell i < A.ncols) :
    Ok (_mzd_apply_p_right_trans l1 A P) fun D => Sh A D ∧
      ∀ a j, D.bit a j = if a < A.nrows then A.bit a (Walk P.cell (List.range (min P.size A.ncols)) j) else A.bit a j := by
  unfold _mzd_apply_p_right_trans
  by_cases hz : A.nrows = 0
  · rw [if_pos hz, Ok.pure_iff]
    exact ⟨Sh.refl A, fun a j => by rw [if_neg (by omega)]⟩
  rw [if_neg hz, if_neg (by unfold Mzd.width; omega)]
  simp only []
  refine rowBlocks_spec w (by omega) (σ := fun _ j => Walk P.cell (List.range (min P.size A.ncols)) j) fun q N hq sh => ?_
  rw [sh.ncols]
  refine (cols_up (sh.wf w) (by rw [sh.ncols]; omega) (by omega) (by rw [sh.ncols]; exact hv)).mono fun D ⟨h1, h2⟩ => ⟨sh.trans h1, ?_⟩
  rw [sh.nrows] at h2; exact h2

theorem slow_spec (l1 : Nat) (w : A.Wf) (h0 : 0 < A.ncols) (hv : ∀ i < P.size, i ≤ P.cell i ∧ P.cell i < A.ncols) :
    Ok (_mzd_apply_p_right l1 A P) fun D => Sh A D ∧
      ∀ a j, D.bit a j = if a < A.nrows then A.bit a (Walk P.cell (List.range (min P.size A.ncols)).reverse j) else A.bit a j := by
  have hle : P.size ≤ A.ncols := by
    by_contra h
    have := hv (P.size - 1) (by omega); omega
  rw [Nat.min_eq_left hle]
  unfold _mzd_apply_p_right
  by_cases hz : A.nrows = 0
  · rw [if_pos hz, Ok.pure_iff]
    exact ⟨Sh.refl A, fun a j => by rw [if_neg (by omega)]⟩
  rw [if_neg hz, if_neg (by unfold Mzd.width; omega)]
  simp only []
  refine rowBlocks_spec w (by omega) (σ := fun _ j => Walk P.cell (List.range P.size).reverse j) fun q N hq sh => ?_
  refine (cols_down (sh.wf w) (by rw [sh.ncols]; omega) (by omega) (by rw [sh.ncols]; exact hv)).mono fun D ⟨h1, h2⟩ => ⟨sh.trans h1, ?_⟩
  rw [sh.nrows] at h2; exact h2

theorem tri_spec (l1 : Nat) (w : A.Wf) (h0 : 0 < A.ncols) (hs : P.size = A.ncols) (hv : ∀ i < A.ncols, i ≤ P.cell i ∧ P.cell i < A.ncols) :
    Ok (mzd_apply_p_right_trans_tri l1 A P) fun D => Sh A D ∧
      ∀ a j, D.bit a j = if a < A.nrows then A.bit a (Walk P.cell (List.range' (a + 1) (A.ncols - (a + 1))) j) else A.bit a j := by
  unfold mzd_apply_p_right_trans_tri
  rw [if_neg (by omega), if_neg (by unfold Mzd.width; omega)]
  simp only []
  refine rowBlocks_spec w (by omega) (σ := fun a j => Walk P.cell (List.range' (a + 1) (A.ncols - (a + 1))) j) fun q N hq sh => ?_
  rw [sh.ncols]
  refine (cols_tri (sh.wf w) (by rw [sh.ncols]) (by omega) (by rw [sh.ncols]; exact hv)).mono fun D ⟨h1, h2⟩ => ⟨sh.trans h1, ?_⟩
  rw [sh.nrows] at h2; exact h2

/-! ## Out of range -/

theorem loop_fails {σ : Type} {f : Nat → σ → C σ} {e : Fault} (Q : Nat → σ → Prop) {hi k : Nat} {x : σ} (h0 : Q 0 x) (h2 : k < hi)
    (hs : ∀ i x, i < k → Q i x → Ok (f i x) (Q (i + 1))) (hk : ∀ x, Q k x → f k x = .error e) : forUp 0 hi x f = .error e := by
  rw [forUp_split 0 k hi (Nat.zero_le _) (Nat.le_of_lt h2)]
  obtain ⟨y, hy, qy⟩ : Ok (forUp 0 k x f) (Q k) := Ok.forUp (P := Q) (Nat.zero_le _) h0 (fun i x _ hi hq => hs i x hi hq) (fun x h => h)
  rw [hy, C_ok_bind]
  unfold forUp
  obtain ⟨m, hm⟩ : ∃ m, hi - k = m + 1 := ⟨hi - k - 1, by omega⟩
  rw [hm, List.range'_succ, List.foldlM_cons, hk y qy]
  rfl

end WB.m4w
