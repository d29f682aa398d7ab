import Mathlib.Data.List.GetD
import Verif.Prop.C65

/-!
# C68 — entering the elements of a matrix of the layer on top of M4RI
-/
namespace WB
open m4ri

variable {lib : M4ri} {s : Heap}

/-- C68: `MatGf2Set` followed by `MatGf2Get`: an even value is stored as 0 and an odd value that is not negative as 1; the
other elements stay. -/
theorem C68_MatGf2Set_partial (hs : s.Ok) {p r c : Nat} {A : Matrix (Fin r) (Fin c) (ZMod 2)} (h : Points s p A)
    (i : Fin r) (j : Fin c) {v : Int} (hv : 0 ≤ v ∨ v % 2 = 0) :
    ∃ s', MatGf2Set p i j v s = .ok ((), s') ∧ Points s' p (fun i' j' => if i' = i ∧ j' = j then (v : ZMod 2) else A i' j') ∧
      ∀ q, q ≠ p → s'.obj q = s.obj q := by
  obtain ⟨m, hp, hA⟩ := h
  refine ⟨_, set_run hs v hp (by rw [hA.nrows]; exact i.2) (by rw [hA.ncols]; exact j.2),
    ⟨_, setObj_self _ _ _, hA.nrows, hA.ncols, ?_⟩, fun q hq => setObj_ne _ _ hq⟩
  intro i' j'
  have hb : bitF (setBit v j) = (v : ZMod 2) := by
    rw [setBit_eq]
    by_cases h2 : v % 2 = 0
    · rw [if_pos h2]
      exact ((ZMod.intCast_zmod_eq_zero_iff_dvd v 2).2 (Int.dvd_of_emod_eq_zero h2)).symm
    · rw [if_neg h2, if_pos (by tauto)]
      have : v % 2 = 1 := by omega
      rw [← ZMod.intCast_mod v 2]
      show _ = ((v % 2 : Int) : ZMod 2)
      rw [this]
      rfl
  show bitF (if i'.val = i.val ∧ j'.val = j.val then setBit v j else m.bit i' j') = _
  by_cases h : i' = i ∧ j' = j
  · obtain ⟨rfl, rfl⟩ := h
    rw [if_pos ⟨rfl, rfl⟩, if_pos ⟨rfl, rfl⟩, hb]
  · rw [if_neg (fun h' => h ⟨Fin.ext h'.1, Fin.ext h'.2⟩), if_neg h]
    exact hA.bit i' j'

/-- C68 fails for odd negative values: `MatGf2Set(mat, i, j, -1)` stores 1 only in every 64th column; in the others it
stores 0. -/
theorem C68_MatGf2Set_violated (hs : s.Ok) {p r c : Nat} {A : Matrix (Fin r) (Fin c) (ZMod 2)} (h : Points s p A)
    (i : Fin r) (j : Fin c) {v : Int} (hv : v < 0) (hodd : v % 2 = 1) :
    ∃ s', MatGf2Set p i j v s = .ok ((), s') ∧ MatGf2Get p i j s' = .ok (decide (j.val % 64 = 0), s') := by
  obtain ⟨m, hp, hA⟩ := h
  have hi : i.val < m.nrows := by rw [hA.nrows]; exact i.2
  have hj : j.val < m.ncols := by rw [hA.ncols]; exact j.2
  refine ⟨_, set_run hs v hp hi hj, ?_⟩
  rw [get_run (m := m.set i j (setBit v j)) (hs.setSome hp) (setObj_self _ _ _) hi hj]
  show Except.ok (if i.val = i.val ∧ j.val = j.val then setBit v j else _, _) = _
  rw [if_pos ⟨rfl, rfl⟩, setBit_eq, if_neg (by omega), if_neg (by omega)]

example : valueOf ((do MatGf2Set 3 1 2 5; MatGf2Get 3 1 2 : MM Bool) exHeap) = some true := by decide +kernel
example : valueOf ((do MatGf2Set 3 1 2 (-5); MatGf2Get 3 1 2 : MM Bool) exHeap) = some false := by decide +kernel
example : valueOf ((do MatGf2Set 3 1 0 (-5); MatGf2Get 3 1 0 : MM Bool) exHeap) = some true := by decide +kernel

/-- The matrix whose rows are stored one after the other in an array. -/
def rowMajor (r c : Nat) (data : List Int) : Matrix (Fin r) (Fin c) (ZMod 2) :=
  fun i j => ((data.getD (c * i + j) 0 : Int) : ZMod 2)

/-- C68: `InitMatGf2ByValueArray` enters a square matrix given row by row, with values that are not negative. -/
theorem C68_InitMatGf2ByValueArray_partial (hs : s.Ok) {p n : Nat} {A : Matrix (Fin n) (Fin n) (ZMod 2)}
    (h : Points s p A) {data : List Int} (hd : data.length = n * n) (hv : ∀ v ∈ data, 0 ≤ v) :
    ∃ s', InitMatGf2ByValueArray data p s = .ok ((), s') ∧ Points s' p (rowMajor n n data) ∧
      ∀ q, q ≠ p → s'.obj q = s.obj q := by
  obtain ⟨m, hp, hA⟩ := h
  have hlt : ∀ i j, i < n → j < n → n * i + j < data.length := by
    intro i j hi hj
    have := Nat.mul_le_mul_left n (show i + 1 ≤ n by omega)
    rw [Nat.mul_succ] at this
    omega
  obtain ⟨_, s', e, hw⟩ := valueArray_run (data := data) hs hp (by rw [hA.nrows, hA.ncols]; exact hlt)
  obtain ⟨m', rfl, hm'⟩ := hw.is hA.nrows hA.ncols
  refine ⟨_, e, ⟨m', setObj_self _ _ _, hm'.nrows, hm'.ncols, ?_⟩, fun q hq => setObj_ne _ _ hq⟩
  intro i j
  rw [hm'.bit]
  show bitF (setBit (data.getD (m.nrows * i + j) 0) j) = ((data.getD (n * i + j) 0 : Int) : ZMod 2)
  rw [hA.nrows]
  have hx : 0 ≤ data.getD (n * i + j) 0 := by
    rw [List.getD_eq_getElem _ _ (hlt i j i.2 j.2)]
    exact hv _ (List.getElem_mem _)
  generalize data.getD (n * i + j) 0 = v at hx ⊢
  rw [setBit_eq]
  by_cases h2 : v % 2 = 0
  · rw [if_pos h2]
    exact ((ZMod.intCast_zmod_eq_zero_iff_dvd v 2).2 (Int.dvd_of_emod_eq_zero h2)).symm
  · rw [if_neg h2, if_pos hx]
    have h3 : v % 2 = 1 := by omega
    rw [← ZMod.intCast_mod v 2]
    show _ = ((v % 2 : Int) : ZMod 2)
    rw [h3]
    rfl

/-- C68 fails for a matrix with more rows than columns: `InitMatGf2ByValueArray` reads outside the array, whatever the
elements are. -/
theorem C68_InitMatGf2ByValueArray_tall_violated (hs : s.Ok) {p r c : Nat} {A : Matrix (Fin r) (Fin c) (ZMod 2)}
    (h : Points s p A) (hc : 0 < c) (hrc : c < r) {data : List Int} (hd : data.length = r * c) :
    InitMatGf2ByValueArray data p s = .error (.c .oob) := by
  obtain ⟨m, hp, hA⟩ := h
  exact valueArray_oob hs hp (by rw [hd, hA.nrows, hA.ncols]) (by rw [hA.ncols]; exact hc)
    (by rw [hA.nrows, hA.ncols]; exact hrc)

/-- C68 fails for a matrix with fewer rows than columns: element (`i`, `j`) of the result is number `r * i + j` of the array
and not number `c * i + j`. -/
theorem C68_InitMatGf2ByValueArray_wide_violated (hs : s.Ok) {p r c : Nat} {A : Matrix (Fin r) (Fin c) (ZMod 2)}
    (h : Points s p A) (hrc : r < c) {data : List Int} (hd : data.length = r * c) (hv : ∀ v ∈ data, 0 ≤ v) :
    ∃ s', InitMatGf2ByValueArray data p s = .ok ((), s') ∧
      Points s' p (fun (i : Fin r) (j : Fin c) => ((data.getD (r * i + j) 0 : Int) : ZMod 2)) := by
  obtain ⟨m, hp, hA⟩ := h
  have hlt : ∀ i j, i < r → j < c → r * i + j < data.length := by
    intro i j hi hj
    have h1 : r * i ≤ (r - 1) * c := by
      calc r * i ≤ c * i := Nat.mul_le_mul_right _ (by omega)
        _ ≤ c * (r - 1) := Nat.mul_le_mul_left _ (by omega)
        _ = (r - 1) * c := Nat.mul_comm _ _
    have h2 : (r - 1) * c + c = r * c := by
      rw [← Nat.succ_mul, show (r - 1).succ = r by omega]
    omega
  obtain ⟨_, s', e, hw⟩ := valueArray_run (data := data) hs hp (by rw [hA.nrows, hA.ncols]; exact hlt)
  obtain ⟨m', rfl, hm'⟩ := hw.is hA.nrows hA.ncols
  refine ⟨_, e, ⟨m', setObj_self _ _ _, hm'.nrows, hm'.ncols, ?_⟩⟩
  intro i j
  rw [hm'.bit]
  show bitF (setBit (data.getD (m.nrows * i + j) 0) j) = ((data.getD (r * i + j) 0 : Int) : ZMod 2)
  rw [hA.nrows]
  have hx : 0 ≤ data.getD (r * i + j) 0 := by
    rw [List.getD_eq_getElem _ _ (hlt i j i.2 j.2)]
    exact hv _ (List.getElem_mem _)
  generalize data.getD (r * i + j) 0 = v at hx ⊢
  rw [setBit_eq]
  by_cases h2 : v % 2 = 0
  · rw [if_pos h2]
    exact ((ZMod.intCast_zmod_eq_zero_iff_dvd v 2).2 (Int.dvd_of_emod_eq_zero h2)).symm
  · rw [if_neg h2, if_pos hx]
    have h3 : v % 2 = 1 := by omega
    rw [← ZMod.intCast_mod v 2]
    show _ = ((v % 2 : Int) : ZMod 2)
    rw [h3]
    rfl

/-- C68 fails for every shape with at least two rows and more columns than rows: there is an array for which the result is
not the matrix given row by row. -/
theorem C68_InitMatGf2ByValueArray_wide_wrong_violated (hs : s.Ok) {p r c : Nat} {A : Matrix (Fin r) (Fin c) (ZMod 2)}
    (h : Points s p A) (hr : 2 ≤ r) (hrc : r < c) :
    ∃ (data : List Int) (s' : Heap), data.length = r * c ∧ (∀ v ∈ data, v = 0 ∨ v = 1) ∧
      InitMatGf2ByValueArray data p s = .ok ((), s') ∧ ¬ Points s' p (rowMajor r c data) := by
  have hlen : c < r * c := by nlinarith
  let data : List Int := (List.replicate (r * c) 0).set c 1
  have hd : data.length = r * c := by simp [data]
  have hval : ∀ v ∈ data, v = 0 ∨ v = 1 := by
    intro v hv
    rcases List.mem_or_eq_of_mem_set hv with h | h
    · exact .inl (List.eq_of_mem_replicate h)
    · exact .inr h
  have h01 : ∀ k, data.getD k 0 = if k = c then 1 else 0 := by
    intro k
    by_cases hk : k < r * c
    · rw [List.getD_eq_getElem _ _ (by rw [hd]; exact hk)]
      by_cases hkc : k = c
      · subst hkc; simp [data]
      · simp [data, List.getElem_set, hkc, Ne.symm hkc]
    · rw [List.getD_eq_default _ _ (by rw [hd]; omega), if_neg (by omega)]
  obtain ⟨s', e, m', hm', hX⟩ := C68_InitMatGf2ByValueArray_wide_violated hs h hrc hd
    (fun v hv => by rcases hval v hv with rfl | rfl <;> decide)
  refine ⟨data, s', hd, hval, e, ?_⟩
  rintro ⟨m'', hm'', hY⟩
  rw [hm'] at hm''
  cases hm''
  have e1 := hX.bit ⟨1, by omega⟩ ⟨0, by omega⟩
  have e2 := hY.bit ⟨1, by omega⟩ ⟨0, by omega⟩
  rw [e1] at e2
  simp only [rowMajor, h01] at e2
  rw [if_neg (by omega), if_pos (by omega)] at e2
  revert e2
  decide

example : valueOf ((do InitMatGf2ByValueArray [1, 0, 1, 0, 1, 0] 3; MatGf2Get 3 1 0 : MM Bool) exHeap) = some true := by
  decide +kernel

/-- C68: `InitMatrixFromBitArray` enters a matrix with at most 64 columns row by row, every row as a number whose most
significant bit comes first. -/
theorem C68_InitMatrixFromBitArray (hs : s.Ok) {p r c : Nat} {A : Matrix (Fin r) (Fin c) (ZMod 2)} (h : Points s p A)
    {data : List (BitVec 64)} (hd : r ≤ data.length) :
    ∃ s', InitMatrixFromBitArray data p s = .ok ((), s') ∧
      Points s' p (fun (i : Fin r) (j : Fin c) => bitF (bitS c (data.getD i 0) j)) ∧
      ∀ q, q ≠ p → s'.obj q = s.obj q := by
  obtain ⟨m, hp, hA⟩ := h
  obtain ⟨_, s', e, hw⟩ := bitArray_run (data := data) hs hp (by rw [hA.nrows]; exact hd)
  obtain ⟨m', rfl, hm'⟩ := hw.is hA.nrows hA.ncols
  refine ⟨_, e, ⟨m', setObj_self _ _ _, hm'.nrows, hm'.ncols, ?_⟩, fun q hq => setObj_ne _ _ hq⟩
  intro i j
  rw [hm'.bit]
  show bitF ((data.getD i 0).getLsbD (m.ncols - 1 - j)) = _
  rw [hA.ncols]
  rfl

example : valueOf ((do InitMatrixFromBitArray [0b011, 0b100] 3; MatGf2Get 3 0 1 : MM Bool) exHeap) = some true := by
  decide +kernel

end WB
