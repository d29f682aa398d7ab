import Verif.Proof.Methods
import Verif.Proof.MulAll
import Verif.Model.RLUD

/-!
# Random triangular matrices: the state of one row

While row `i` is filled, the rows above are not changed, and on the columns in `D` row `i` is
that of the identity matrix.
-/
namespace WB.rlud
open Matrix

theorem rident4 : IdOK 4 identM4 := by unfold IdOK; decide
theorem rident8 : IdOK 8 identM8 := by unfold IdOK; decide
theorem rident16 : IdOK 16 identM16 := by unfold IdOK; decide
theorem rident32 : IdOK 32 identM32 := by unfold IdOK; decide
theorem rident64 : IdOK 64 identM64 := by unfold IdOK; decide +kernel

/-- `M` agrees with `M0` above row `i`, and row `i` with the identity matrix on `D`. -/
structure RowSt {R : Type} (n : Nat) (bit : R → Nat → Bool) (M0 : Vector R n) (i : Nat) (D : Nat → Prop)
    (M : Vector R n) : Prop where
  above : ∀ r (hr : r < n), r < i → M[r] = M0[r]
  row : ∀ hi : i < n, ∀ c, c < n → D c → bit M[i] c = decide (c = i)

theorem RowSt.weaken {R : Type} {n : Nat} {bit : R → Nat → Bool} {M0 M : Vector R n} {i : Nat}
    {D D' : Nat → Prop} (h : RowSt n bit M0 i D M) (hD : ∀ c, D' c → D c) : RowSt n bit M0 i D' M :=
  ⟨h.above, fun hi c hc hd => h.row hi c hc (hD c hd)⟩

theorem RowSt.start {R : Type} {n : Nat} {bit : R → Nat → Bool} (M : Vector R n) (i : Nat) :
    RowSt n bit M i (fun _ => False) M := ⟨fun _ _ _ => rfl, fun _ _ _ h => h.elim⟩

/-! ## One word -/

theorem id_bit {n w : Nat} {id : Vector (BitVec w) n} (hid : IdOK n id) {i c : Nat} (hi : i < n)
    (hc : c < n) : bitS n id[i] c = decide (c = i) := by
  have := hid.1
  unfold bitS
  rw [hid.2 i hi, BitVec.getLsbD_twoPow]
  by_cases h : c = i
  · subst h; simp; omega
  · simp [h]; omega

theorem wr_row {n w : Nat} {id : Vector (BitVec w) n} (hid : IdOK n id) {M0 M : Vector (BitVec w) n}
    {i : Nat} (hi : i < n) {D : Nat → Prop} (h : RowSt n (bitS n) M0 i D M) :
    Ok (do wr M i (← rd id i)) (RowSt n (bitS n) M0 i (fun _ => True)) := by
  rw [rd_ok _ _ hi, C_pure_bind, wr_ok _ _ _ hi, Ok.ok_iff]
  refine ⟨fun r hr hlt => ?_, fun _ c hc _ => ?_⟩
  · rw [Vector.getElem_set_ne _ _ (by omega)]; exact h.above r hr hlt
  · rw [Vector.getElem_set_self]; exact id_bit hid hi hc

theorem flip_row {n w : Nat} {id : Vector (BitVec w) n} (hid : IdOK n id) {M0 M : Vector (BitVec w) n}
    {i j : Nat} (hi : i < n) (hj : j < n) {D D' : Nat → Prop} (h : RowSt n (bitS n) M0 i D M)
    (hD : ∀ c, D' c → D c ∧ c ≠ j) (w0 : World) :
    OkM (flip M i id j) w0 (fun M' w' => RowSt n (bitS n) M0 i D' M' ∧ w' = w0.adv 1) := by
  unfold flip
  rw [OkM.bind_iff]
  refine OkM_draw ?_
  rw [OkM.liftC_iff, umod_two, C_pure_bind, Ok.ite_iff]
  refine ⟨fun _ => ?_, fun _ => (Ok.pure_iff _ _).2 ⟨h.weaken fun c hc => (hD c hc).1, rfl⟩⟩
  rw [rd_ok _ _ hi, C_pure_bind, rd_ok _ _ hj, C_pure_bind, wr_ok _ _ _ hi, Ok.ok_iff]
  refine ⟨⟨fun r hr hlt => ?_, fun _ c hc hd => ?_⟩, rfl⟩
  · rw [Vector.getElem_set_ne _ _ (by omega)]; exact h.above r hr hlt
  · rw [Vector.getElem_set_self, bitS_xor, id_bit hid hj hc, h.row hi c hc (hD c hd).1]
    simp [(hD c hd).2]

theorem flips_row {n w : Nat} {id : Vector (BitVec w) n} (hid : IdOK n id) {M0 M : Vector (BitVec w) n}
    {i a b : Nat} (hi : i < n) (hab : a ≤ b) (hb : b ≤ n) {D D' : Nat → Prop}
    (h : RowSt n (bitS n) M0 i D M) (hD : ∀ c, D' c → D c ∧ (c < a ∨ b ≤ c)) (w0 : World) :
    OkM (forUp a b M fun j M => flip M i id j) w0
      (fun M' w' => RowSt n (bitS n) M0 i D' M' ∧ w' = w0.adv (b - a)) := by
  refine OkM.forUp (fun j M' w' => RowSt n (bitS n) M0 i (fun c => D c ∧ (c < a ∨ b ≤ c)) M' ∧
    w' = w0.adv (j - a)) hab ⟨h.weaken fun c hc => hc.1, by rw [Nat.sub_self, adv_zero]⟩ ?_ ?_
  · rintro j M1 w1 hj1 hj2 ⟨h1, rfl⟩
    refine (flip_row hid hi (by omega) h1 (D' := fun c => D c ∧ (c < a ∨ b ≤ c))
      (fun c hc => ⟨hc, by omega⟩) _).mono ?_
    rintro M2 w2 ⟨h2, rfl⟩
    exact ⟨h2, by rw [adv_adv]; congr 1; omega⟩
  · rintro M' w' ⟨h1, h2⟩
    exact ⟨h1.weaken hD, h2⟩

/-! ## Several words -/

theorem id_bit64 {i c k : Nat} (hk : 64 * k ≤ i) (hi : i < 64 * k + 64) (hc : c / 64 = k) :
    (identM64[i - 64 * k]'(by omega)).getLsbD (63 - c % 64) = decide (c = i) := by
  rw [rident64.2 _ (by omega), BitVec.getLsbD_twoPow]
  by_cases h : c = i
  · subst h; simp; omega
  · simp [h]; omega

theorem bitW_set {l : Nat} (x : Vector (BitVec 64) l) (k : Nat) (hk : k < l) (v : BitVec 64) (c : Nat)
    (hc : c < 64 * l) : bitW (x.set k v) c = if c / 64 = k then v.getLsbD (63 - c % 64) else bitW x c := by
  have hc' : c / 64 < l := by omega
  rw [bitW_eq _ _ hc', bitW_eq _ _ hc', Vector.getElem_set]
  by_cases h : c / 64 = k
  · simp [h]
  · simp [h, Ne.symm h]

/-- Writing a word of row `i`. -/
theorem wr2_row {n l : Nat} (hn : n = 64 * l) {M0 M : Vector (Vector (BitVec 64) l) n}
    {i k : Nat} (hi : i < n) (hk : k < l) (v : BitVec 64)
    (hv : ∀ c, c < n → c / 64 = k → v.getLsbD (63 - c % 64) = decide (c = i)) {D D' : Nat → Prop}
    (h : RowSt n bitW M0 i D M) (hD : ∀ c, D' c → c / 64 = k ∨ D c) :
    Ok (wr2 M i k v) (RowSt n bitW M0 i D') := by
  rw [wr2_ok _ _ _ _ hi hk, Ok.ok_iff]
  refine ⟨fun r hr hlt => ?_, fun _ c hc hd => ?_⟩
  · rw [Vector.getElem_set_ne _ _ (by omega)]; exact h.above r hr hlt
  · rw [Vector.getElem_set_self, bitW_set _ _ hk _ _ (by omega)]
    by_cases hck : c / 64 = k
    · rw [if_pos hck]; exact hv c hc hck
    · rw [if_neg hck]; exact h.row hi c hc ((hD c hd).resolve_left hck)

theorem zero_row {n l : Nat} (hn : n = 64 * l) {M0 M : Vector (Vector (BitVec 64) l) n}
    {i k : Nat} (hi : i < n) (hk : k < l) (hik : i / 64 ≠ k) {D D' : Nat → Prop}
    (h : RowSt n bitW M0 i D M) (hD : ∀ c, D' c → c / 64 = k ∨ D c) (w0 : World) :
    OkM (liftC (wr2 M i k 0)) w0 (fun M' w' => RowSt n bitW M0 i D' M' ∧ w' = w0) := by
  rw [OkM.liftC_iff]
  refine (wr2_row hn hi hk 0 (fun c _ hck => ?_) h hD).mono fun M' h' => ⟨h', rfl⟩
  have : c ≠ i := by rintro rfl; exact hik hck
  simp [this]

theorem one_row {n l : Nat} (hn : n = 64 * l) {M0 M : Vector (Vector (BitVec 64) l) n}
    {i k s : Nat} (hi : i < n) (hk : k < l) (hs : s < 64) (hik : i = 64 * k + s) {D D' : Nat → Prop}
    (h : RowSt n bitW M0 i D M) (hD : ∀ c, D' c → c / 64 = k ∨ D c) (w0 : World) :
    OkM (liftC do wr2 M i k (← rd identM64 s)) w0 (fun M' w' => RowSt n bitW M0 i D' M' ∧ w' = w0) := by
  rw [OkM.liftC_iff, rd_ok _ _ hs, C_pure_bind]
  refine (wr2_row hn hi hk _ (fun c _ hck => ?_) h hD).mono fun M' h' => ⟨h', rfl⟩
  have := id_bit64 (i := i) (c := c) (k := k) (by omega) (by omega) hck
  rw [← this]
  congr 2
  omega

theorem flip2_row {n l : Nat} (hn : n = 64 * l) {M0 M : Vector (Vector (BitVec 64) l) n}
    {i k s : Nat} (hi : i < n) (hk : k < l) (hs : s < 64) {D D' : Nat → Prop}
    (h : RowSt n bitW M0 i D M) (hD : ∀ c, D' c → D c ∧ c ≠ 64 * k + s) (w0 : World) :
    OkM (flip2 M i k identM64 s) w0 (fun M' w' => RowSt n bitW M0 i D' M' ∧ w' = w0.adv 1) := by
  unfold flip2
  rw [OkM.bind_iff]
  refine OkM_draw ?_
  rw [OkM.liftC_iff, umod_two, C_pure_bind, Ok.ite_iff]
  refine ⟨fun _ => ?_, fun _ => (Ok.pure_iff _ _).2 ⟨h.weaken fun c hc => (hD c hc).1, rfl⟩⟩
  rw [rd2_ok _ _ _ hi hk, C_pure_bind, rd_ok _ _ hs, C_pure_bind, wr2_ok _ _ _ _ hi hk, Ok.ok_iff]
  refine ⟨⟨fun r hr hlt => ?_, fun _ c hc hd => ?_⟩, rfl⟩
  · rw [Vector.getElem_set_ne _ _ (by omega)]; exact h.above r hr hlt
  · have hrow := h.row hi c hc (hD c hd).1
    rw [Vector.getElem_set_self, bitW_set _ _ hk _ _ (by omega), ← hrow]
    by_cases hck : c / 64 = k
    · have hb := id_bit64 (i := 64 * k + s) (c := c) (k := k) (by omega) (by omega) hck
      have hs' : (identM64[64 * k + s - 64 * k]'(by omega)) = identM64[s] := by congr 1; omega
      rw [hs'] at hb
      rw [if_pos hck, BitVec.getLsbD_xor, hb, bitW_eq _ _ (by omega)]
      simp [(hD c hd).2, hck]
    · rw [if_neg hck]

theorem flips2_row {n l : Nat} (hn : n = 64 * l) {M0 M : Vector (Vector (BitVec 64) l) n}
    {i k a b : Nat} (sub : Nat → Nat) (hi : i < n) (hk : k < l) (hab : a ≤ b)
    (hsub : ∀ j, a ≤ j → j < b → sub j < 64) {D D' : Nat → Prop} (h : RowSt n bitW M0 i D M)
    (hD : ∀ c, D' c → D c ∧ ∀ j, a ≤ j → j < b → c ≠ 64 * k + sub j) (w0 : World) :
    OkM (forUp a b M fun j M => flip2 M i k identM64 (sub j)) w0
      (fun M' w' => RowSt n bitW M0 i D' M' ∧ w' = w0.adv (b - a)) := by
  refine OkM.forUp (fun j M' w' => RowSt n bitW M0 i (fun c => D c ∧ ∀ j, a ≤ j → j < b → c ≠ 64 * k + sub j) M' ∧
    w' = w0.adv (j - a)) hab ⟨h.weaken fun c hc => hc.1, by rw [Nat.sub_self, adv_zero]⟩ ?_ ?_
  · rintro j M1 w1 hj1 hj2 ⟨h1, rfl⟩
    refine (flip2_row hn hi hk (hsub j hj1 hj2) h1
      (D' := fun c => D c ∧ ∀ j, a ≤ j → j < b → c ≠ 64 * k + sub j)
      (fun c hc => ⟨hc, hc.2 j hj1 hj2⟩) _).mono ?_
    rintro M2 w2 ⟨h2, rfl⟩
    exact ⟨h2, by rw [adv_adv]; congr 1; omega⟩
  · rintro M' w' ⟨h1, h2⟩
    exact ⟨h1.weaken hD, h2⟩

/-! ## All rows -/

/-- Rows `lo` to `hi - 1` are filled one after the other; row `i` uses `d i` draws. -/
theorem rows_loop {R : Type} {n : Nat} {bit : R → Nat → Bool} (P : Nat → Nat → Prop) (d : Nat → Nat)
    {lo hi : Nat} (hle : lo ≤ hi) (hn : hi ≤ n) {body : Nat → Vector R n → CM (Vector R n)}
    (hb : ∀ i M w, lo ≤ i → i < hi → OkM (body i M) w (fun M' w' => RowSt n bit M i (P i) M' ∧ w' = w.adv (d i)))
    (M : Vector R n) (w : World)
    (h0 : ∀ r (hr : r < n), r < lo → ∀ c, c < n → P r c → bit M[r] c = decide (c = r)) :
    OkM (forUp lo hi M body) w (fun M' w' =>
      (∀ r (hr : r < n), r < hi → ∀ c, c < n → P r c → bit M'[r] c = decide (c = r)) ∧
      w' = w.adv (∑ i ∈ Finset.Ico lo hi, d i)) := by
  refine OkM.forUp (fun i M' w' =>
    (∀ r (hr : r < n), r < i → ∀ c, c < n → P r c → bit M'[r] c = decide (c = r)) ∧
      w' = w.adv (∑ i ∈ Finset.Ico lo i, d i)) hle ⟨h0, by rw [Finset.Ico_self, Finset.sum_empty, adv_zero]⟩ ?_
    (fun _ _ h => h)
  rintro i M1 w1 h1 h2 ⟨hM, rfl⟩
  refine (hb i M1 _ h1 h2).mono ?_
  rintro M2 w2 ⟨hs, rfl⟩
  refine ⟨fun r hr hlt c hc hp => ?_, ?_⟩
  · rcases Nat.lt_succ_iff_lt_or_eq.1 hlt with h | rfl
    · rw [hs.above r hr h]; exact hM r hr h c hc hp
    · exact hs.row hr c hc hp
  · rw [adv_adv, Finset.sum_Ico_succ_top h1]

/-- Unit lower triangular. -/
def UnitLower {n : Nat} (A : Mat n) : Prop := (∀ i, A i i = 1) ∧ ∀ i j, i < j → A i j = 0

/-- Unit upper triangular. -/
def UnitUpper {n : Nat} (A : Mat n) : Prop := (∀ i, A i i = 1) ∧ ∀ i j, j < i → A i j = 0

theorem UnitUpper.det {n : Nat} {A : Mat n} (h : UnitUpper A) : A.det = 1 :=
  det_one_of_tri (fun r c _ hc => h.2 r c hc) h.1

theorem UnitLower.det {n : Nat} {A : Mat n} (h : UnitLower A) : A.det = 1 := by
  rw [← Matrix.det_transpose]
  exact UnitUpper.det (A := A.transpose) ⟨h.1, fun i j hij => h.2 j i hij⟩

theorem lower_of {R : Type} {n : Nat} {bit : R → Nat → Bool} {M : Vector R n}
    (h : ∀ r (hr : r < n), r < n → ∀ c, c < n → r ≤ c → bit M[r] c = decide (c = r)) :
    UnitLower (matOf n bit M) := by
  constructor
  · intro i
    simp only [matOf, Fin.getElem_fin]
    rw [h i i.2 i.2 i i.2 (le_refl _)]; simp [bitF]
  · intro i j hij
    simp only [matOf, Fin.getElem_fin]
    have hij' : i.val < j.val := hij
    rw [h i i.2 i.2 j j.2 (by omega)]
    simp [bitF, show j.val ≠ i.val by omega]

theorem upper_of {R : Type} {n : Nat} {bit : R → Nat → Bool} {M : Vector R n}
    (h : ∀ r (hr : r < n), r < n → ∀ c, c < n → c ≤ r → bit M[r] c = decide (c = r)) :
    UnitUpper (matOf n bit M) := by
  constructor
  · intro i
    simp only [matOf, Fin.getElem_fin]
    rw [h i i.2 i.2 i i.2 (le_refl _)]; simp [bitF]
  · intro i j hij
    simp only [matOf, Fin.getElem_fin]
    have hij' : j.val < i.val := hij
    rw [h i i.2 i.2 j j.2 (by omega)]
    simp [bitF, show j.val ≠ i.val by omega]

end WB.rlud
