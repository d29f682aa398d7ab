import Verif.Proof.AESPlain

/-!
# The computation of the S-box in the white-box AES demo (helper lemmas)
-/
namespace WB.aes

/-- One iteration of the loop of `initialize_aes_sbox`. -/
def pqStep (c : BitVec 8 × BitVec 8) : BitVec 8 × BitVec 8 :=
  let p := c.1 ^^^ (c.1 <<< 1) ^^^ (if c.1 &&& 0x80 != 0 then 0x1B else 0)
  let q := c.2 ^^^ c.2 <<< 1
  let q := q ^^^ q <<< 2
  let q := q ^^^ q <<< 4
  let q := q ^^^ (if q &&& 0x80 != 0 then 0x09 else 0)
  (p, q)

/-- The value stored. -/
def xform (q : BitVec 8) : BitVec 8 := q ^^^ ROTL8 q 1 ^^^ ROTL8 q 2 ^^^ ROTL8 q 3 ^^^ ROTL8 q 4 ^^^ 0x63

/-- The state after `n` iterations. -/
def pq : Nat → BitVec 8 × BitVec 8
  | 0 => (1, 1)
  | n + 1 => pqStep (pq n)

theorem sboxLoop_succ (fuel : Nat) (c : BitVec 8 × BitVec 8) (sbox : Vector (BitVec 8) 256) :
    sboxLoop (fuel + 1) c.1 c.2 sbox =
      (wr sbox (pqStep c).1.toNat (xform (pqStep c).2)).bind fun sbox =>
        if (pqStep c).1 != 1 then sboxLoop fuel (pqStep c).1 (pqStep c).2 sbox else pure sbox := rfl


set_option maxRecDepth 4096 in
/-- The states of `initialize_aes_sbox`: `3^n`. -/
def pTab : List Nat := [1, 3, 5, 15, 17, 51, 85, 255, 26, 46, 114, 150, 161, 248, 19, 53, 95, 225, 56, 72, 216, 115, 149, 164,
    247, 2, 6, 10, 30, 34, 102, 170, 229, 52, 92, 228, 55, 89, 235, 38, 106, 190, 217, 112, 144, 171, 230, 49,
    83, 245, 4, 12, 20, 60, 68, 204, 79, 209, 104, 184, 211, 110, 178, 205, 76, 212, 103, 169, 224, 59, 77, 215,
    98, 166, 241, 8, 24, 40, 120, 136, 131, 158, 185, 208, 107, 189, 220, 127, 129, 152, 179, 206, 73, 219, 118, 154,
    181, 196, 87, 249, 16, 48, 80, 240, 11, 29, 39, 105, 187, 214, 97, 163, 254, 25, 43, 125, 135, 146, 173, 236,
    47, 113, 147, 174, 233, 32, 96, 160, 251, 22, 58, 78, 210, 109, 183, 194, 93, 231, 50, 86, 250, 21, 63, 65,
    195, 94, 226, 61, 71, 201, 64, 192, 91, 237, 44, 116, 156, 191, 218, 117, 159, 186, 213, 100, 172, 239, 42, 126,
    130, 157, 188, 223, 122, 142, 137, 128, 155, 182, 193, 88, 232, 35, 101, 175, 234, 37, 111, 177, 200, 67, 197, 84,
    252, 31, 33, 99, 165, 244, 7, 9, 27, 45, 119, 153, 176, 203, 70, 202, 69, 207, 74, 222, 121, 139, 134, 145,
    168, 227, 62, 66, 198, 81, 243, 14, 18, 54, 90, 238, 41, 123, 141, 140, 143, 138, 133, 148, 167, 242, 13, 23,
    57, 75, 221, 124, 132, 151, 162, 253, 28, 36, 108, 180, 199, 82, 246, 1]

set_option maxRecDepth 4096 in
/-- The states of `initialize_aes_sbox`: `3^(-n)`. -/
def qTab : List Nat := [1, 246, 82, 199, 180, 108, 36, 28, 253, 162, 151, 132, 124, 221, 75, 57, 23, 13, 242, 167, 148, 133, 138, 143,
    140, 141, 123, 41, 238, 90, 54, 18, 14, 243, 81, 198, 66, 62, 227, 168, 145, 134, 139, 121, 222, 74, 207, 69,
    202, 70, 203, 176, 153, 119, 45, 27, 9, 7, 244, 165, 99, 33, 31, 252, 84, 197, 67, 200, 177, 111, 37, 234,
    175, 101, 35, 232, 88, 193, 182, 155, 128, 137, 142, 122, 223, 188, 157, 130, 126, 42, 239, 172, 100, 213, 186, 159,
    117, 218, 191, 156, 116, 44, 237, 91, 192, 64, 201, 71, 61, 226, 94, 195, 65, 63, 21, 250, 86, 50, 231, 93,
    194, 183, 109, 210, 78, 58, 22, 251, 160, 96, 32, 233, 174, 147, 113, 47, 236, 173, 146, 135, 125, 43, 25, 254,
    163, 97, 214, 187, 105, 39, 29, 11, 240, 80, 48, 16, 249, 87, 196, 181, 154, 118, 219, 73, 206, 179, 152, 129,
    127, 220, 189, 107, 208, 185, 158, 131, 136, 120, 40, 24, 8, 241, 166, 98, 215, 77, 59, 224, 169, 103, 212, 76,
    205, 178, 110, 211, 184, 104, 209, 79, 204, 68, 60, 20, 12, 4, 245, 83, 49, 230, 171, 144, 112, 217, 190, 106,
    38, 235, 89, 55, 228, 92, 52, 229, 170, 102, 34, 30, 10, 6, 2, 247, 164, 149, 115, 216, 72, 56, 225, 95,
    53, 19, 248, 161, 150, 114, 46, 26, 255, 85, 51, 17, 15, 5, 3, 1]

set_option maxRecDepth 4096 in
/-- Exponent of `x` to the base 3, between 1 and 255. -/
def logTab : List Nat := [0, 255, 25, 1, 50, 2, 26, 198, 75, 199, 27, 104, 51, 238, 223, 3, 100, 4, 224, 14, 52, 141, 129, 239,
    76, 113, 8, 200, 248, 105, 28, 193, 125, 194, 29, 181, 249, 185, 39, 106, 77, 228, 166, 114, 154, 201, 9, 120,
    101, 47, 138, 5, 33, 15, 225, 36, 18, 240, 130, 69, 53, 147, 218, 142, 150, 143, 219, 189, 54, 208, 206, 148,
    19, 92, 210, 241, 64, 70, 131, 56, 102, 221, 253, 48, 191, 6, 139, 98, 179, 37, 226, 152, 34, 136, 145, 16,
    126, 110, 72, 195, 163, 182, 30, 66, 58, 107, 40, 84, 250, 133, 61, 186, 43, 121, 10, 21, 155, 159, 94, 202,
    78, 212, 172, 229, 243, 115, 167, 87, 175, 88, 168, 80, 244, 234, 214, 116, 79, 174, 233, 213, 231, 230, 173, 232,
    44, 215, 117, 122, 235, 22, 11, 245, 89, 203, 95, 176, 156, 169, 81, 160, 127, 12, 246, 111, 23, 196, 73, 236,
    216, 67, 31, 45, 164, 118, 123, 183, 204, 187, 62, 90, 251, 96, 177, 134, 59, 82, 161, 108, 170, 85, 41, 157,
    151, 178, 135, 144, 97, 190, 220, 252, 188, 149, 207, 205, 55, 63, 91, 209, 83, 57, 132, 60, 65, 162, 109, 71,
    20, 42, 158, 93, 86, 242, 211, 171, 68, 17, 146, 217, 35, 32, 46, 137, 180, 124, 184, 38, 119, 153, 227, 165,
    103, 74, 237, 222, 197, 49, 254, 24, 13, 99, 140, 128, 192, 247, 112, 7]

theorem pq_tab_step : ∀ n : Fin 255,
    pqStep (BitVec.ofNat 8 (pTab.getD n 0), BitVec.ofNat 8 (qTab.getD n 0)) =
      (BitVec.ofNat 8 (pTab.getD (n + 1) 0), BitVec.ofNat 8 (qTab.getD (n + 1) 0)) := by decide +kernel

theorem pq_tab (n : Nat) (hn : n < 256) : pq n = (BitVec.ofNat 8 (pTab.getD n 0), BitVec.ofNat 8 (qTab.getD n 0)) := by
  induction n with
  | zero => rfl
  | succ n ih =>
    show pqStep (pq n) = _
    rw [ih (by omega)]
    exact pq_tab_step ⟨n, by omega⟩

theorem pq_facts (n : Nat) (h0 : n ≠ 0) (h : n < 256) : xform (pq n).2 = AES.S (pq n).1 ∧ (n ≠ 255 → (pq n).1 ≠ 1) := by
  rw [pq_tab n h]
  rw [← sbox_table]
  have : ∀ n : Fin 256, n.val ≠ 0 → xform (BitVec.ofNat 8 (qTab.getD n 0)) =
      SBox[(BitVec.ofNat 8 (pTab.getD n 0)).toNat]'(BitVec.isLt _) ∧ (n.val ≠ 255 → BitVec.ofNat 8 (pTab.getD n 0) ≠ 1) := by decide +kernel
  exact this ⟨n, h⟩ h0

theorem pq_last : (pq 255).1 = 1 := by
  rw [pq_tab 255 (by omega)]
  decide +kernel

theorem pq_onto (x : BitVec 8) (hx : x ≠ 0) : ∃ n, n ≠ 0 ∧ n < 256 ∧ (pq n).1 = x := by
  have : ∀ x : BitVec 8, x ≠ 0 → logTab.getD x.toNat 0 ≠ 0 ∧ logTab.getD x.toNat 0 < 256 ∧
      BitVec.ofNat 8 (pTab.getD (logTab.getD x.toNat 0) 0) = x := by decide +kernel
  obtain ⟨h0, h1, h2⟩ := this x hx
  exact ⟨_, h0, h1, by rw [pq_tab _ h1]; exact h2⟩

theorem sboxLoop_ok (k n : Nat) (hk : n + k + 1 = 255) (fuel : Nat) (hf : k + 1 ≤ fuel) (sbox : Vector (BitVec 8) 256) :
    Ok (sboxLoop fuel (pq n).1 (pq n).2 sbox) (fun s => ∀ x : BitVec 8,
      ((∃ m, n < m ∧ m < 256 ∧ (pq m).1 = x) ∨ sbox[x.toNat]! = AES.S x → s[x.toNat]! = AES.S x)) := by
  induction k generalizing n fuel sbox with
  | zero =>
    obtain ⟨fuel, rfl⟩ : ∃ f, fuel = f + 1 := ⟨fuel - 1, by omega⟩
    rw [sboxLoop_succ]
    rw [show pqStep (pq n) = pq (n + 1) from rfl]
    obtain ⟨s, hs, gs⟩ := wr_get sbox (i := (pq (n + 1)).1.toNat) (BitVec.isLt _) (xform (pq (n + 1)).2)
    rw [hs]
    have e : (pq (n + 1)).1 = 1 := by
      rw [show n + 1 = 255 by omega, pq_last]
    show Ok (if (pq (n + 1)).1 != 1 then _ else _) _
    rw [if_neg (by rw [e]; decide), Ok.pure_iff]
    intro x hx
    rw [gs _ (BitVec.isLt _)]
    by_cases c : x = (pq (n + 1)).1
    · rw [if_pos (by rw [c]), c]
      exact (pq_facts (n + 1) (by omega) (by omega)).1
    · rw [if_neg (fun h => c (BitVec.eq_of_toNat_eq h))]
      rcases hx with ⟨m, h1, h2, rfl⟩ | hx
      · exact absurd (by rw [show m = n + 1 by omega]) c
      · exact hx
  | succ k ih =>
    obtain ⟨fuel, rfl⟩ : ∃ f, fuel = f + 1 := ⟨fuel - 1, by omega⟩
    rw [sboxLoop_succ]
    rw [show pqStep (pq n) = pq (n + 1) from rfl]
    obtain ⟨s, hs, gs⟩ := wr_get sbox (i := (pq (n + 1)).1.toNat) (BitVec.isLt _) (xform (pq (n + 1)).2)
    rw [hs]
    have e : (pq (n + 1)).1 ≠ 1 := (pq_facts (n + 1) (by omega) (by omega)).2 (by omega)
    show Ok (if (pq (n + 1)).1 != 1 then sboxLoop fuel (pq (n + 1)).1 (pq (n + 1)).2 s else _) _
    rw [if_pos (by simpa using e)]
    refine (ih (n + 1) (by omega) fuel (by omega) s).mono ?_
    intro r hr x hx
    apply hr x
    rw [gs _ (BitVec.isLt _)]
    by_cases c : x = (pq (n + 1)).1
    · right
      rw [if_pos (by rw [c]), c]
      exact (pq_facts (n + 1) (by omega) (by omega)).1
    · rw [if_neg (fun h => c (BitVec.eq_of_toNat_eq h))]
      rcases hx with ⟨m, h1, h2, rfl⟩ | hx
      · left
        refine ⟨m, ?_, h2, rfl⟩
        rcases Nat.lt_or_ge (n + 1) m with h | h
        · exact h
        · exact absurd (by rw [show m = n + 1 by omega]) c
      · exact .inr hx

theorem sboxLoop_short (fuel n : Nat) (hn : n + fuel < 255) (sbox : Vector (BitVec 8) 256) :
    sboxLoop fuel (pq n).1 (pq n).2 sbox = .error .diverge := by
  induction fuel generalizing n sbox with
  | zero => rfl
  | succ fuel ih =>
    rw [sboxLoop_succ, show pqStep (pq n) = pq (n + 1) from rfl]
    obtain ⟨s, hs, -⟩ := wr_get sbox (i := (pq (n + 1)).1.toNat) (BitVec.isLt _) (xform (pq (n + 1)).2)
    rw [hs]
    have e : (pq (n + 1)).1 ≠ 1 := (pq_facts (n + 1) (by omega) (by omega)).2 (by omega)
    show (if (pq (n + 1)).1 != 1 then sboxLoop fuel (pq (n + 1)).1 (pq (n + 1)).2 s else _) = _
    rw [if_pos (by simpa using e)]
    exact ih (n + 1) (by omega) s

theorem initialize_aes_sbox_ok (fuel : Nat) (hf : 255 ≤ fuel) (sbox : Vector (BitVec 8) 256) :
    Ok (initialize_aes_sbox fuel sbox) (fun s => ∀ x : BitVec 8, s[x.toNat]! = AES.S x) := by
  unfold initialize_aes_sbox
  refine Ok.bind (sboxLoop_ok 254 0 (by omega) fuel hf sbox) ?_
  intro s hs
  obtain ⟨r, hr, gr⟩ := wr_get s (i := 0) (by omega) (0x63 : BitVec 8)
  rw [hr, Ok.ok_iff]
  intro x
  rw [gr _ (BitVec.isLt _)]
  by_cases c : x = 0
  · rw [if_pos (by rw [c]; rfl), c]; decide +kernel
  · rw [if_neg (fun h : x.toNat = 0 => c (BitVec.eq_of_toNat_eq (by simpa using h)))]
    obtain ⟨n, h0, h1, h2⟩ := pq_onto x c
    exact hs x (.inl ⟨n, by omega, h1, h2⟩)

theorem initialize_aes_sbox_short (fuel : Nat) (hf : fuel < 255) (sbox : Vector (BitVec 8) 256) :
    initialize_aes_sbox fuel sbox = .error .diverge := by
  unfold initialize_aes_sbox
  rw [show sboxLoop fuel 1 1 sbox = .error .diverge from sboxLoop_short fuel 0 (by omega) sbox]
  rfl

end WB.aes
