import Verif.Proof.AESMix

/-!
# Encryption with the tables of the white-box AES demo (helper lemmas)
-/
namespace WB.aes
open AES (State)
open SM4 (word byte)
open wbsm4 (rd3 wr3 placed word_placed)

attribute [local irreducible] AES.S lin gfMul

/-- A nibble. -/
def nib (x : BitVec 32) (h : Nat) : BitVec 32 := x >>> h &&& 0xf

theorem nib_lt (x : BitVec 32) (h : Nat) : (nib x h).toNat < 16 := by
  unfold nib
  rw [BitVec.toNat_and]
  exact Nat.lt_of_le_of_lt Nat.and_le_right (by decide)

theorem getLsbD_nib (x : BitVec 32) (h i : Nat) : (nib x h).getLsbD i = (decide (i < 4) && x.getLsbD (h + i)) := by
  unfold nib
  by_cases hi : i < 32
  · have hm : (0xf : BitVec 32).getLsbD i = decide (i < 4) := by
      have : ∀ i : Fin 32, (0xf : BitVec 32).getLsbD i = decide (i.val < 4) := by decide
      exact this ⟨i, hi⟩
    rw [BitVec.getLsbD_and, hm, BitVec.getLsbD_ushiftRight, Bool.and_comm]
  · rw [BitVec.getLsbD_of_ge _ _ (by omega), decide_eq_false (by omega), Bool.false_and]

theorem nib_xor (x y : BitVec 32) (h : Nat) : nib (x ^^^ y) h = nib x h ^^^ nib y h := by
  apply BitVec.eq_of_getLsbD_eq
  intro i _
  rw [BitVec.getLsbD_xor, getLsbD_nib, getLsbD_nib, getLsbD_nib, BitVec.getLsbD_xor]
  cases decide (i < 4) <;> simp

theorem ofNat_nib (x y : BitVec 32) (h : Nat) :
    BitVec.ofNat 8 ((nib x h).toNat ^^^ (nib y h).toNat) = (nib (x ^^^ y) h).setWidth 8 := by
  rw [nib_xor, ← BitVec.toNat_xor]
  apply BitVec.eq_of_toNat_eq
  simp

theorem toNat_nib8 (x : BitVec 32) (h : Nat) : ((nib x h).setWidth 8).toNat = (nib x h).toNat := by
  have := nib_lt x h
  rw [BitVec.toNat_setWidth]
  omega

theorem nib_byte (x : BitVec 32) (d : Nat) (hd : d < 4) :
    ((nib x (28 - 8 * d)).setWidth 8 <<< 4 ||| (nib x (24 - 8 * d)).setWidth 8 : BitVec 8) = byte x d := by
  unfold byte
  apply BitVec.eq_of_getLsbD_eq
  intro i hi
  simp only [BitVec.getLsbD_or, BitVec.getLsbD_shiftLeft, BitVec.getLsbD_setWidth, getLsbD_nib,
    BitVec.getLsbD_extractLsb', hi, decide_true, Bool.true_and]
  by_cases c : i < 4
  · simp [c]
  · have e : 28 - 8 * d + (i - 4) = 24 - 8 * d + i := by omega
    rw [e]
    simp [c, show i - 4 < 8 by omega, show i - 4 < 4 by omega]

theorem xorByte_eq {T : Tables}
    (hx : ∀ a b c d, a < 9 → b < 96 → c < 16 → d < 16 → (((T.xorTable[a]!)[b]!)[c]!)[d]! = BitVec.ofNat 8 (c ^^^ d))
    (i j d : Nat) (hi : i < 9) (hj : j < 4) (hd : d < 4) (a b c e : BitVec 32) :
    xorByte T i (24 * j + 6 * d) (28 - 8 * d) (24 - 8 * d) a b c e = .ok (byte (a ^^^ b ^^^ c ^^^ e) d) := by
  have hr : ∀ t h u v, t < 6 → rd4 T.xorTable i (24 * j + 6 * d + t) (nib u h).toNat (nib v h).toNat =
      .ok ((nib (u ^^^ v) h).setWidth 8) := by
    intro t h u v ht
    rw [rd4_get T.xorTable hi (by omega) (nib_lt u h) (nib_lt v h), hx i _ _ _ hi (by omega) (nib_lt u h) (nib_lt v h),
      ofNat_nib]
  unfold xorByte
  simp only [show ∀ (x : BitVec 32) (h : Nat), x >>> h &&& 15 = nib x h from fun _ _ => rfl]
  rw [hr 0 _ a b (by omega), C_pure_bind, hr 1 _ c e (by omega), C_pure_bind, hr 2 _ a b (by omega), C_pure_bind,
    hr 3 _ c e (by omega), C_pure_bind]
  simp only [toNat_nib8]
  rw [hr 4 _ _ _ (by omega), C_pure_bind, hr 5 _ _ _ (by omega), C_pure_bind, nib_byte _ d hd, C_pure_eq]
  congr 2
  ac_rfl

theorem xorColumn_ok {T : Tables}
    (hx : ∀ a b c d, a < 9 → b < 96 → c < 16 → d < 16 → (((T.xorTable[a]!)[b]!)[c]!)[d]! = BitVec.ofNat 8 (c ^^^ d))
    (i j : Nat) (hi : i < 9) (hj : j < 4) (a b c e : BitVec 32) (s : State) :
    Ok (xorColumn T i j a b c e s) (fun s' => ∀ x, x < 16 → s'[x]! =
      if x / 4 = j then byte (a ^^^ b ^^^ c ^^^ e) (x % 4) else s[x]!) := by
  unfold xorColumn
  have h := fun d hd => xorByte_eq hx i j d hi hj hd a b c e
  rw [show xorByte T i (24 * j + 0) 28 24 a b c e = _ from h 0 (by omega), C_pure_bind,
    show xorByte T i (24 * j + 6) 20 16 a b c e = _ from h 1 (by omega)]
  obtain ⟨s1, s2, s3, s4, h1, h2, h3, h4, hout, e0, e1, e2, e3⟩ := wr4_get s (i := 4 * j + 0) (by omega)
    (byte (a ^^^ b ^^^ c ^^^ e) 0) (byte (a ^^^ b ^^^ c ^^^ e) 1) (byte (a ^^^ b ^^^ c ^^^ e) 2)
    (byte (a ^^^ b ^^^ c ^^^ e) 3)
  rw [h1, C_pure_bind, C_pure_bind, h2, C_pure_bind, show xorByte T i (24 * j + 12) 12 8 a b c e = _ from h 2 (by omega),
    C_pure_bind, h3, C_pure_bind, show xorByte T i (24 * j + 18) 4 0 a b c e = _ from h 3 (by omega), C_pure_bind, h4,
    Ok.ok_iff]
  intro x hx
  by_cases c : x / 4 = j
  · rw [if_pos c]
    have hx4 : x = 4 * j + x % 4 := by omega
    have : x % 4 < 4 := by omega
    generalize x % 4 = d at hx4 this ⊢
    subst hx4
    obtain rfl | rfl | rfl | rfl : d = 0 ∨ d = 1 ∨ d = 2 ∨ d = 3 := by omega
    · exact e0
    · exact e1
    · exact e2
    · exact e3
  · rw [if_neg c]
    exact (hout x hx (by omega)).2.2.2

/-- The mixed column with the given bytes. -/
def column (b0 b1 b2 b3 : BitVec 8) : BitVec 32 := Tyi 0 b0 ^^^ Tyi 1 b1 ^^^ Tyi 2 b2 ^^^ Tyi 3 b3

theorem byte_xor (x y : BitVec 32) (d : Nat) : byte (x ^^^ y) d = byte x d ^^^ byte y d := by
  unfold byte
  apply BitVec.eq_of_getLsbD_eq
  intro i hi
  simp [hi]

theorem tableColumn_ok {k : Nat → State} {M N : Nat → Nat → M32} {T : Tables} (h : TablesOk k M N T)
    (i j : Nat) (hi : i < 9) (hj : j < 4) (s : State) :
    Ok (tableColumn T i j s) (fun s' => ∀ x, x < 16 → s'[x]! = if x / 4 = j then
      byte (column (bx k i (4 * j) s[4 * j]!.toNat) (bx k i (4 * j + 1) s[4 * j + 1]!.toNat)
        (bx k i (4 * j + 2) s[4 * j + 2]!.toNat) (bx k i (4 * j + 3) s[4 * j + 3]!.toNat)) (x % 4) else s[x]!) := by
  unfold tableColumn
  have hb : ∀ d, d < 4 → (do rd3 T.TyiBoxes i (4 * j + d) (← rd s (4 * j + d)).toNat : C (BitVec 32)) =
      .ok (lin (M i j) (Tyi d (bx k i (4 * j + d) s[4 * j + d]!.toNat))) := by
    intro d hd
    rw [rd_get s (by omega), C_pure_bind, rd3_get T.TyiBoxes hi (by omega) (BitVec.isLt _),
      h.boxes i _ _ hi (by omega) (BitVec.isLt _), show (4 * j + d) / 4 = j by omega, show (4 * j + d) % 4 = d by omega]
  have hb' : ∀ d, d < 4 → ∀ (f : BitVec 32 → C State),
      (do let a ← rd s (4 * j + d); let b ← rd3 T.TyiBoxes i (4 * j + d) a.toNat; f b : C State) =
      f (lin (M i j) (Tyi d (bx k i (4 * j + d) s[4 * j + d]!.toNat))) := by
    intro d hd f
    have := hb d hd
    rw [rd_get s (by omega), C_pure_bind] at this ⊢
    rw [this, C_pure_bind]
  rw [hb' 0 (by omega), hb' 1 (by omega), hb' 2 (by omega), hb' 3 (by omega)]
  refine Ok.bind (xorColumn_ok h.xor i j hi hj _ _ _ _ s) ?_
  intro s1 hs1
  rw [← lin_xor, ← lin_xor, ← lin_xor, show 4 * j + 0 = 4 * j from rfl] at hs1
  rw [show Tyi 0 _ ^^^ Tyi 1 _ ^^^ Tyi 2 _ ^^^ Tyi 3 _ = column (bx k i (4 * j) s[4 * j]!.toNat)
    (bx k i (4 * j + 1) s[4 * j + 1]!.toNat) (bx k i (4 * j + 2) s[4 * j + 2]!.toNat)
    (bx k i (4 * j + 3) s[4 * j + 3]!.toNat) from rfl] at hs1
  generalize column (bx k i (4 * j) s[4 * j]!.toNat)
    (bx k i (4 * j + 1) s[4 * j + 1]!.toNat) (bx k i (4 * j + 2) s[4 * j + 2]!.toNat)
    (bx k i (4 * j + 3) s[4 * j + 3]!.toNat) = W at hs1 ⊢
  have hs : ∀ d, d < 4 → s1[4 * j + d]! = byte (lin (M i j) W) d := by
    intro d hd
    rw [hs1 _ (by omega), if_pos (by omega), show (4 * j + d) % 4 = d by omega]
  have ho : ∀ d, d < 4 → ∀ (f : BitVec 32 → C State),
      (do let a ← rd s1 (4 * j + d); let b ← rd3 T.mixBijOut i (4 * j + d) a.toNat; f b : C State) =
      f (lin (N i j) (placed d (byte (lin (M i j) W) d))) := by
    intro d hd f
    rw [rd_get s1 (by omega), C_pure_bind, hs d hd, rd3_get T.mixBijOut (by omega) (by omega) (BitVec.isLt _), C_pure_bind,
      h.out i _ _ hi (by omega) (BitVec.isLt _), show (4 * j + d) / 4 = j by omega, show (4 * j + d) % 4 = d by omega,
      ofNat_toNat8]
  rw [ho 0 (by omega), ho 1 (by omega), ho 2 (by omega), ho 3 (by omega)]
  refine (xorColumn_ok h.xor i j hi hj _ _ _ _ s1).mono ?_
  intro s2 hs2
  rw [← lin_xor, ← lin_xor, ← lin_xor, ← word_placed, sm4.word_byte, h.inv i j W hi hj] at hs2
  intro x hx
  rw [hs2 x hx]
  by_cases c : x / 4 = j
  · rw [if_pos c, if_pos c]
  · rw [if_neg c, if_neg c, hs1 x hx, if_neg c]

theorem byte_Tyi (b : BitVec 8) :
    byte (Tyi 0 b) 0 = gfMul 27 2 b ∧ byte (Tyi 0 b) 1 = b ∧ byte (Tyi 0 b) 2 = b ∧ byte (Tyi 0 b) 3 = gfMul 27 3 b ∧
    byte (Tyi 1 b) 0 = gfMul 27 3 b ∧ byte (Tyi 1 b) 1 = gfMul 27 2 b ∧ byte (Tyi 1 b) 2 = b ∧ byte (Tyi 1 b) 3 = b ∧
    byte (Tyi 2 b) 0 = b ∧ byte (Tyi 2 b) 1 = gfMul 27 3 b ∧ byte (Tyi 2 b) 2 = gfMul 27 2 b ∧ byte (Tyi 2 b) 3 = b ∧
    byte (Tyi 3 b) 0 = b ∧ byte (Tyi 3 b) 1 = b ∧ byte (Tyi 3 b) 2 = gfMul 27 3 b ∧ byte (Tyi 3 b) 3 = gfMul 27 2 b := by
  rw [Tyi_0, Tyi_1, Tyi_2, Tyi_3]
  obtain ⟨a0, a1, a2, a3⟩ := sm4.byte_word (gfMul 0x1b 2 b) b b (gfMul 0x1b 3 b)
  obtain ⟨b0, b1, b2, b3⟩ := sm4.byte_word (gfMul 0x1b 3 b) (gfMul 0x1b 2 b) b b
  obtain ⟨c0, c1, c2, c3⟩ := sm4.byte_word b (gfMul 0x1b 3 b) (gfMul 0x1b 2 b) b
  obtain ⟨d0, d1, d2, d3⟩ := sm4.byte_word b b (gfMul 0x1b 3 b) (gfMul 0x1b 2 b)
  exact ⟨a0, a1, a2, a3, b0, b1, b2, b3, c0, c1, c2, c3, d0, d1, d2, d3⟩

theorem mc_get (s : State) {x : Nat} (hx : x < 16) : (AES.mixColumns s)[x]! =
    byte (column s[4 * (x / 4)]! s[4 * (x / 4) + 1]! s[4 * (x / 4) + 2]! s[4 * (x / 4) + 3]!) (x % 4) := by
  have e : (AES.mixColumns s)[x]! = _ := ofFn_get _ hx
  rw [e]
  simp only [cell_get]
  unfold column
  obtain ⟨j, d, hj, hd, rfl⟩ : ∃ j d, j < 4 ∧ d < 4 ∧ x = 4 * j + d := ⟨x / 4, x % 4, by omega, by omega, by omega⟩
  rw [show (4 * j + d) / 4 = j by omega, show (4 * j + d) % 4 = d by omega, show j % 4 = j by omega]
  generalize h0 : s[4 * j]! = b0
  generalize h1 : s[4 * j + 1]! = b1
  generalize h2 : s[4 * j + 2]! = b2
  generalize h3 : s[4 * j + 3]! = b3
  obtain ⟨a0, a1, a2, a3, -⟩ := byte_Tyi b0
  obtain ⟨-, -, -, -, c0, c1, c2, c3, -⟩ := byte_Tyi b1
  obtain ⟨-, -, -, -, -, -, -, -, d0, d1, d2, d3, -⟩ := byte_Tyi b2
  obtain ⟨-, -, -, -, -, -, -, -, -, -, -, -, e0, e1, e2, e3⟩ := byte_Tyi b3
  obtain rfl | rfl | rfl | rfl : d = 0 ∨ d = 1 ∨ d = 2 ∨ d = 3 := by omega
  · rw [byte_xor, byte_xor, byte_xor, a0, c0, d0, e0, show 0 + 4 * j = 4 * j by omega, h0,
      show (4 * j + 0 + 1) % 4 + 4 * j = 4 * j + 1 by omega, h1, show (4 * j + 0 + 2) % 4 + 4 * j = 4 * j + 2 by omega, h2,
      show (4 * j + 0 + 3) % 4 + 4 * j = 4 * j + 3 by omega, h3]
  · rw [byte_xor, byte_xor, byte_xor, a1, c1, d1, e1, show 1 + 4 * j = 4 * j + 1 by omega, h1,
      show (4 * j + 1 + 1) % 4 + 4 * j = 4 * j + 2 by omega, h2, show (4 * j + 1 + 2) % 4 + 4 * j = 4 * j + 3 by omega, h3,
      show (4 * j + 1 + 3) % 4 + 4 * j = 4 * j by omega, h0]
    ac_rfl
  · rw [byte_xor, byte_xor, byte_xor, a2, c2, d2, e2, show 2 + 4 * j = 4 * j + 2 by omega, h2,
      show (4 * j + 2 + 1) % 4 + 4 * j = 4 * j + 3 by omega, h3, show (4 * j + 2 + 2) % 4 + 4 * j = 4 * j by omega, h0,
      show (4 * j + 2 + 3) % 4 + 4 * j = 4 * j + 1 by omega, h1]
    ac_rfl
  · rw [byte_xor, byte_xor, byte_xor, a3, c3, d3, e3, show 3 + 4 * j = 4 * j + 3 by omega, h3,
      show (4 * j + 3 + 1) % 4 + 4 * j = 4 * j by omega, h0, show (4 * j + 3 + 2) % 4 + 4 * j = 4 * j + 1 by omega, h1,
      show (4 * j + 3 + 3) % 4 + 4 * j = 4 * j + 2 by omega, h2]
    ac_rfl

theorem bx_get (k : Nat → State) (i x : Nat) (hx : x < 16) (s : State) :
    bx k i x s[x]!.toNat = (AES.subBytes (AES.addRoundKey s (AES.shiftRows (k i))))[x]! := by
  unfold bx
  rw [ofNat_toNat8, sb_get _ hx, ark_get _ _ hx]

theorem tableRound_eq {k : Nat → State} {M N : Nat → Nat → M32} {T : Tables} (h : TablesOk k M N T)
    (i : Nat) (hi : i < 9) (s : State) :
    (forUp 0 4 s fun j s => tableColumn T i j s) =
      .ok (AES.mixColumns (AES.subBytes (AES.addRoundKey s (AES.shiftRows (k i))))) := by
  have : Ok (forUp 0 4 s fun j s => tableColumn T i j s) (fun s' => ∀ x, x < 16 → s'[x]! =
      if x / 4 < 4 then (AES.mixColumns (AES.subBytes (AES.addRoundKey s (AES.shiftRows (k i)))))[x]! else s[x]!) := by
    refine Ok.forUp (fun j (s' : State) => ∀ x, x < 16 → s'[x]! =
      if x / 4 < j then (AES.mixColumns (AES.subBytes (AES.addRoundKey s (AES.shiftRows (k i)))))[x]! else s[x]!) (by omega)
      (fun x _ => by rw [if_neg (by omega)]) ?_ (fun s' h => h)
    intro j s' _ hj hs
    refine (tableColumn_ok h i j hi hj s').mono ?_
    intro s2 hs2 x hx
    rw [hs2 x hx]
    by_cases c : x / 4 = j
    · rw [if_pos c, if_pos (by omega), mc_get _ hx, c]
      rw [← bx_get k i (4 * j) (by omega), ← bx_get k i (4 * j + 1) (by omega), ← bx_get k i (4 * j + 2) (by omega),
        ← bx_get k i (4 * j + 3) (by omega)]
      have hold : ∀ d, d < 4 → s'[4 * j + d]! = s[4 * j + d]! := fun d hd => by
        rw [hs _ (by omega), if_neg (by omega)]
      rw [show s'[4 * j]! = s[4 * j]! from hold 0 (by omega), hold 1 (by omega), hold 2 (by omega), hold 3 (by omega)]
    · rw [if_neg c, hs x hx]
      by_cases c2 : x / 4 < j
      · rw [if_pos c2, if_pos (by omega)]
      · rw [if_neg c2, if_neg (by omega)]
  obtain ⟨s', e, hs⟩ := this
  rw [e]
  congr 1
  apply vec_ext
  intro x hx
  rw [hs x hx, if_pos (by omega)]

theorem table_encrypt_eq (env : Env) {k : Nat → State} {M N : Nat → Nat → M32} {T : Tables} (h : TablesOk k M N T)
    (input output : State) :
    aes_128_table_encrypt env T input output = .ok (AES.cipher k input, AES.cipher k input) := by
  rw [← Ok.eq]
  unfold aes_128_table_encrypt
  refine Ok.bind (P := fun s => s = pre k input 9) ?_ ?_
  · refine Ok.forUp (fun n (s : State) => s = pre k input n) (by omega) rfl ?_ (fun s h => h)
    rintro n s - hn rfl
    rw [shiftRows_eq, C_pure_bind, tableRound_eq h n hn, Ok.ok_iff]
    rfl
  · rintro s rfl
    rw [shiftRows_eq, C_pure_bind]
    obtain ⟨s', e, hs⟩ := fill 16 (AES.shiftRows (pre k input 9)) 0
      (fun j => bx k 9 j (AES.shiftRows (pre k input 9))[j]!.toNat ^^^ (k 10)[j]!)
      (fun j input => do wr input j (← rd3 T.TBoxes 9 j (← rd input j).toNat)) (by omega) (by
        intro j m hj hm
        rw [rd_get m hj, C_pure_bind, rd3_get T.TBoxes (by omega) hj (BitVec.isLt _), C_pure_bind,
          h.box 9 j _ (by omega) hj (BitVec.isLt _), if_pos rfl, hm j hj, if_neg (by omega), Nat.zero_add])
    have e2 : s' = AES.cipher k input := by
      rw [← cipher_pre]
      apply vec_ext
      intro x hx
      rw [hs x hx, if_pos (by omega), Nat.sub_zero, bx_get k 9 x hx, ark_get _ _ hx]
    rw [e, C_pure_bind, copy16, C_pure_bind, e2, Ok.pure_iff]

theorem mixColumns_table_eq (env : Env) {T : Tables} (h : GoodTyi T) (s : State) :
    mixColumns_table env T s = .ok (AES.mixColumns s) := by
  unfold mixColumns_table
  have : Ok (forUp 0 4 (env.junkArr 8 16) fun j out => do
    let tmp := (← rd2 T.TyiTables 0 (← rd s (4 * j)).toNat) ^^^ (← rd2 T.TyiTables 1 (← rd s (4 * j + 1)).toNat)
      ^^^ (← rd2 T.TyiTables 2 (← rd s (4 * j + 2)).toNat) ^^^ (← rd2 T.TyiTables 3 (← rd s (4 * j + 3)).toNat)
    let out ← wr out (4 * j + 0) ((tmp >>> 24).setWidth 8)
    let out ← wr out (4 * j + 1) ((tmp >>> 16).setWidth 8)
    let out ← wr out (4 * j + 2) ((tmp >>> 8).setWidth 8)
    wr out (4 * j + 3) ((tmp >>> 0).setWidth 8)) (fun out => out = AES.mixColumns s) := by
    refine Ok.forUp (fun j (m : State) => ∀ x, x < 4 * j → m[x]! = (AES.mixColumns s)[x]!)
      (by omega) (by omega) ?_ (fun m h => vec_ext fun x hx => h x (by omega))
    intro j m _ hj hm
    have hr : ∀ r b, r < 4 → rd2 T.TyiTables r (b : BitVec 8).toNat = .ok (Tyi r b) := by
      intro r b hr
      rw [rd2_get T.TyiTables hr b.isLt, h r _ hr b.isLt, ofNat_toNat8]
    rw [rd_get s (show 4 * j < 16 by omega), C_pure_bind, hr 0 _ (by omega), C_pure_bind,
      rd_get s (show 4 * j + 1 < 16 by omega), C_pure_bind, hr 1 _ (by omega), C_pure_bind,
      rd_get s (show 4 * j + 2 < 16 by omega), C_pure_bind, hr 2 _ (by omega), C_pure_bind,
      rd_get s (show 4 * j + 3 < 16 by omega), C_pure_bind, hr 3 _ (by omega), C_pure_bind]
    simp only
    rw [show Tyi 0 s[4 * j]! ^^^ Tyi 1 s[4 * j + 1]! ^^^ Tyi 2 s[4 * j + 2]! ^^^ Tyi 3 s[4 * j + 3]! =
      column s[4 * j]! s[4 * j + 1]! s[4 * j + 2]! s[4 * j + 3]! from rfl]
    generalize hW : column s[4 * j]! s[4 * j + 1]! s[4 * j + 2]! s[4 * j + 3]! = W
    have hbyte : ∀ d, d < 4 → (W >>> (24 - 8 * d)).setWidth 8 = byte W d := by
      intro d hd
      unfold byte
      apply BitVec.eq_of_getLsbD_eq
      intro i hi
      simp [hi]
    rw [show (W >>> 24).setWidth 8 = _ from hbyte 0 (by omega), show (W >>> 16).setWidth 8 = _ from hbyte 1 (by omega),
      show (W >>> 8).setWidth 8 = _ from hbyte 2 (by omega), show (W >>> 0).setWidth 8 = _ from hbyte 3 (by omega)]
    obtain ⟨a1, a2, a3, a4, h1, h2, h3, h4, hout, e0, e1, e2, e3⟩ := wr4_get m (i := 4 * j + 0) (by omega)
      (byte W 0) (byte W 1) (byte W 2) (byte W 3)
    rw [h1, C_pure_bind, h2, C_pure_bind, h3, C_pure_bind, h4, Ok.ok_iff]
    intro x hx
    by_cases c : x < 4 * j
    · rw [(hout x (by omega) (by omega)).2.2.2]
      exact hm x c
    · rw [mc_get s (by omega), show x / 4 = j by omega, hW]
      obtain rfl | rfl | rfl | rfl : x = 4 * j ∨ x = 4 * j + 1 ∨ x = 4 * j + 2 ∨ x = 4 * j + 3 := by omega
      · rw [show 4 * j % 4 = 0 by omega]; exact e0
      · rw [show (4 * j + 1) % 4 = 1 by omega]; exact e1
      · rw [show (4 * j + 2) % 4 = 2 by omega]; exact e2
      · rw [show (4 * j + 3) % 4 = 3 by omega]; exact e3
  obtain ⟨out, ho, rfl⟩ := this
  rw [ho, C_pure_bind, copy16]

end WB.aes
