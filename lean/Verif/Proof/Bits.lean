import Verif.Proof.Simple

/-!
# Bit access (helper lemmas)
-/
namespace WB
open Matrix

theorem rdI_nat {α : Type} {n : Nat} (a : Vector α n) (i : Nat) (h : i < n) :
    rdI a (i : Int) = .ok a[i] := by
  unfold rdI
  rw [if_neg (by omega), Int.toNat_natCast, rd_ok _ _ h]

theorem wrI_nat {α : Type} {n : Nat} (a : Vector α n) (i : Nat) (x : α) (h : i < n) :
    wrI a (i : Int) x = .ok (a.set i x) := by
  unfold wrI
  rw [if_neg (by omega), Int.toNat_natCast, wr_ok _ _ _ h]

theorem rdI_oob {α : Type} {n : Nat} (a : Vector α n) (i : Int) (h : i < 0 ∨ n ≤ i) :
    rdI a i = .error .oob := by
  unfold rdI
  split
  · rfl
  · unfold rd
    rw [dif_neg (by omega)]

theorem rdI_in {α : Type} {n : Nat} (a : Vector α n) (i : Int) (h : 0 ≤ i) (h' : i < n) :
    rdI a i = .ok (a[i.toNat]'(by omega)) := by
  unfold rdI
  rw [if_neg (by omega), rd_ok]

theorem rdI2_nat {α : Type} {n m : Nat} (a : Vector (Vector α m) n) (i k : Nat) (h : i < n)
    (hk : k < m) : rdI2 a (i : Int) k = .ok a[i][k] := by
  unfold rdI2
  rw [if_neg (by omega), Int.toNat_natCast, rd2_ok _ _ _ h hk]

theorem wrI2_nat {α : Type} {n m : Nat} (a : Vector (Vector α m) n) (i k : Nat) (x : α)
    (h : i < n) (hk : k < m) : wrI2 a (i : Int) k x = .ok (a.set i (a[i].set k x)) := by
  unfold wrI2
  rw [if_neg (by omega), Int.toNat_natCast, wr2_ok _ _ _ _ h hk]

theorem rdI2_oob {α : Type} {n m : Nat} (a : Vector (Vector α m) n) (i : Int) (k : Nat)
    (h : i < 0 ∨ n ≤ i) : rdI2 a i k = .error .oob := by
  unfold rdI2
  split
  · rfl
  · unfold rd2 rd
    rw [dif_neg (by omega)]; rfl

theorem rdI2_in {α : Type} {n m : Nat} (a : Vector (Vector α m) n) (i : Int) (k : Nat) (h : 0 ≤ i)
    (h' : i < n) (hk : k < m) : rdI2 a i k = .ok ((a[i.toNat]'(by omega))[k]) := by
  unfold rdI2
  rw [if_neg (by omega), rd2_ok _ _ _ (by omega) hk]

/-! ## one-word rows -/
section S
variable {n w : Nat} {id : Vector (BitVec w) n}

theorem readS (hid : IdOK n id) (A : Vector (BitVec w) n) (i j : Fin n) :
    (do
      let x ← rdI A (i.val : Int)
      let m ← rdI id (j.val : Int)
      if x &&& m == m then pure 1 else pure 0 : C Int) =
    .ok (if matOf n (bitS n) A i j = 1 then 1 else 0) := by
  rw [rdI_nat _ _ i.2, rdI_nat _ _ j.2]
  simp only [C_pure_bind]
  rw [hid.2 j.val j.2, and_twoPow_beq _ _ (by have := hid.1; omega)]
  simp only [matOf, bitF_eq_one, bitS, Fin.getElem_fin]
  split <;> rfl

theorem flipS_eq (hid : IdOK n id) (A : Vector (BitVec w) n) (i j : Fin n) :
    (do wrI A (i.val : Int) ((← rdI A (i.val : Int)) ^^^ (← rdI id (j.val : Int))) : C _) =
      .ok (A.set i.val (A[i.val] ^^^ BitVec.twoPow w (n - 1 - j.val))) := by
  rw [rdI_nat _ _ i.2, rdI_nat _ _ j.2]
  simp only [C_pure_bind]
  rw [hid.2 j.val j.2, wrI_nat _ _ _ i.2]

theorem flipS_mat (hn : n ≤ w) (A : Vector (BitVec w) n) (i j r c : Fin n) :
    matOf n (bitS n) (A.set i.val (A[i.val] ^^^ BitVec.twoPow w (n - 1 - j.val))) r c =
      if r = i ∧ c = j then matOf n (bitS n) A r c + 1 else matOf n (bitS n) A r c := by
  simp only [matOf, Fin.getElem_fin, Vector.getElem_set]
  by_cases h : i.val = r.val
  · have h' : r = i := Fin.ext h.symm
    subst h'
    simp only [if_true, bitS_xor, bitF_xor, true_and]
    by_cases hc : c = j
    · subst hc
      rw [if_pos rfl]
      congr 1
      simp only [bitS, BitVec.getLsbD_twoPow, bitF_eq_one]
      simp; omega
    · rw [if_neg hc]
      have : bitF (bitS n (BitVec.twoPow w (n - 1 - j.val)) c) = 0 := by
        simp only [bitS, BitVec.getLsbD_twoPow, bitF_eq_zero]
        have : c.val ≠ j.val := fun h => hc (Fin.ext h)
        simp; omega
      rw [this, add_zero]
  · rw [if_neg h, if_neg (fun e => h (by rw [e.1]))]

theorem accS_oob (A : Vector (BitVec w) n) (i j : Int)
    (h : ¬ (0 ≤ i ∧ i < n ∧ 0 ≤ j ∧ j < n)) {α : Type} (k : BitVec w → BitVec w → C α) :
    (do
      let x ← rdI A i
      let m ← rdI id j
      k x m) = .error .oob := by
  by_cases hi : 0 ≤ i ∧ i < n
  · rw [rdI_in _ _ hi.1 hi.2, C_pure_bind, rdI_oob _ _ (by omega)]; rfl
  · rw [rdI_oob _ _ (by omega)]; rfl
end S

/-! ## rows of several words -/
section W
variable {n l : Nat} {id : Vector (BitVec 64) 64}

theorem readW (hn : n = 64 * l) (hid : IdOK 64 id) (A : Vector (Vector (BitVec 64) l) n)
    (i j : Fin n) (k : Nat) (jj : Int) (hj : (j.val : Int) = 64 * k + jj) (h0 : 0 ≤ jj) (h1 : jj < 64) :
    (do
      let x ← rdI2 A (i.val : Int) k
      let m ← rdI id jj
      if x &&& m == m then pure 1 else pure 0 : C Int) =
    .ok (if matOf n bitW A i j = 1 then 1 else 0) := by
  obtain ⟨c, rfl⟩ := Int.eq_ofNat_of_zero_le h0
  have hj' : j.val = 64 * k + c := by omega
  have hk : k < l := by have := j.2; omega
  have hc : c < 64 := by omega
  rw [rdI2_nat _ _ _ i.2 hk, rdI_nat _ _ hc]
  simp only [C_pure_bind]
  rw [hid.2 c hc, and_twoPow_beq _ _ (by omega)]
  have : bitW A[i.val] j.val = A[i.val][k].getLsbD (63 - c) := by
    have e : j.val / 64 = k := by omega
    rw [bitW_eq _ _ (by omega)]
    simp only [e]
    congr 1; omega
  simp only [matOf, bitF_eq_one, Fin.getElem_fin, this]
  split <;> rfl

theorem flipW_eq (hn : n = 64 * l) (hid : IdOK 64 id) (A : Vector (Vector (BitVec 64) l) n)
    (i j : Fin n) (k : Nat) (jj : Int) (hj : (j.val : Int) = 64 * k + jj) (h0 : 0 ≤ jj) (h1 : jj < 64) :
    Ok (do wrI2 A (i.val : Int) k ((← rdI2 A (i.val : Int) k) ^^^ (← rdI id jj)) : C _)
      (fun B => ∀ r c, matOf n bitW B r c =
        if r = i ∧ c = j then matOf n bitW A r c + 1 else matOf n bitW A r c) := by
  obtain ⟨d, rfl⟩ := Int.eq_ofNat_of_zero_le h0
  have hj' : j.val = 64 * k + d := by omega
  have hk : k < l := by have := j.2; omega
  have hd : d < 64 := by omega
  rw [rdI2_nat _ _ _ i.2 hk, rdI_nat _ _ hd]
  simp only [C_pure_bind]
  rw [hid.2 d hd, wrI2_nat _ _ _ _ i.2 hk, Ok.ok_iff]
  intro r c
  have hq : c.val / 64 < l := by have := c.2; omega
  simp only [matOf, Fin.getElem_fin]
  rw [bitW_eq _ _ hq, getElem_set2 _ _ _ _ _ i.2 hk _ r.2 hq, bitW_eq _ _ hq]
  by_cases h : r.val = i.val ∧ c.val / 64 = k
  · obtain ⟨hr, rfl⟩ := h
    have hr' : r = i := Fin.ext hr
    subst hr'
    simp only [true_and, if_true, BitVec.getLsbD_xor, bitF_xor]
    by_cases hc : c = j
    · subst hc
      rw [if_pos rfl]
      congr 1
      simp only [BitVec.getLsbD_twoPow, bitF_eq_one]
      simp; omega
    · rw [if_neg hc]
      have : bitF ((BitVec.twoPow 64 (64 - 1 - d)).getLsbD (63 - c.val % 64)) = 0 := by
        have : c.val ≠ j.val := fun h => hc (Fin.ext h)
        simp only [BitVec.getLsbD_twoPow, bitF_eq_zero]
        simp; omega
      rw [this, add_zero]
  · rw [if_neg h, if_neg]
    rintro ⟨rfl, rfl⟩
    exact h ⟨rfl, by omega⟩

theorem accW_oob (A : Vector (Vector (BitVec 64) l) n) (i jj : Int) (k : Nat) (hk : k < l)
    (h : ¬ (0 ≤ i ∧ i < n ∧ 0 ≤ jj ∧ jj < 64)) {α : Type} (f : BitVec 64 → BitVec 64 → C α) :
    (do
      let x ← rdI2 A i k
      let m ← rdI id jj
      f x m) = .error .oob := by
  by_cases hi : 0 ≤ i ∧ i < n
  · rw [rdI2_in _ _ _ hi.1 hi.2 hk, C_pure_bind, rdI_oob _ _ (by omega)]; rfl
  · rw [rdI2_oob _ _ _ (by omega)]; rfl
end W

end WB
