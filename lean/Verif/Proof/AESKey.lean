import Verif.Proof.AESEnc

/-!
# What the AES tables reveal (helper lemmas)
-/
namespace WB.aes
open AES (State)

set_option maxRecDepth 100000 in
/-- The inverse of the S-box. -/
def invSBox : Vector (BitVec 8) 256 :=
  #v[0x52, 0x09, 0x6a, 0xd5, 0x30, 0x36, 0xa5, 0x38, 0xbf, 0x40, 0xa3, 0x9e, 0x81, 0xf3, 0xd7, 0xfb,
   0x7c, 0xe3, 0x39, 0x82, 0x9b, 0x2f, 0xff, 0x87, 0x34, 0x8e, 0x43, 0x44, 0xc4, 0xde, 0xe9, 0xcb,
   0x54, 0x7b, 0x94, 0x32, 0xa6, 0xc2, 0x23, 0x3d, 0xee, 0x4c, 0x95, 0x0b, 0x42, 0xfa, 0xc3, 0x4e,
   0x08, 0x2e, 0xa1, 0x66, 0x28, 0xd9, 0x24, 0xb2, 0x76, 0x5b, 0xa2, 0x49, 0x6d, 0x8b, 0xd1, 0x25,
   0x72, 0xf8, 0xf6, 0x64, 0x86, 0x68, 0x98, 0x16, 0xd4, 0xa4, 0x5c, 0xcc, 0x5d, 0x65, 0xb6, 0x92,
   0x6c, 0x70, 0x48, 0x50, 0xfd, 0xed, 0xb9, 0xda, 0x5e, 0x15, 0x46, 0x57, 0xa7, 0x8d, 0x9d, 0x84,
   0x90, 0xd8, 0xab, 0x00, 0x8c, 0xbc, 0xd3, 0x0a, 0xf7, 0xe4, 0x58, 0x05, 0xb8, 0xb3, 0x45, 0x06,
   0xd0, 0x2c, 0x1e, 0x8f, 0xca, 0x3f, 0x0f, 0x02, 0xc1, 0xaf, 0xbd, 0x03, 0x01, 0x13, 0x8a, 0x6b,
   0x3a, 0x91, 0x11, 0x41, 0x4f, 0x67, 0xdc, 0xea, 0x97, 0xf2, 0xcf, 0xce, 0xf0, 0xb4, 0xe6, 0x73,
   0x96, 0xac, 0x74, 0x22, 0xe7, 0xad, 0x35, 0x85, 0xe2, 0xf9, 0x37, 0xe8, 0x1c, 0x75, 0xdf, 0x6e,
   0x47, 0xf1, 0x1a, 0x71, 0x1d, 0x29, 0xc5, 0x89, 0x6f, 0xb7, 0x62, 0x0e, 0xaa, 0x18, 0xbe, 0x1b,
   0xfc, 0x56, 0x3e, 0x4b, 0xc6, 0xd2, 0x79, 0x20, 0x9a, 0xdb, 0xc0, 0xfe, 0x78, 0xcd, 0x5a, 0xf4,
   0x1f, 0xdd, 0xa8, 0x33, 0x88, 0x07, 0xc7, 0x31, 0xb1, 0x12, 0x10, 0x59, 0x27, 0x80, 0xec, 0x5f,
   0x60, 0x51, 0x7f, 0xa9, 0x19, 0xb5, 0x4a, 0x0d, 0x2d, 0xe5, 0x7a, 0x9f, 0x93, 0xc9, 0x9c, 0xef,
   0xa0, 0xe0, 0x3b, 0x4d, 0xae, 0x2a, 0xf5, 0xb0, 0xc8, 0xeb, 0xbb, 0x3c, 0x83, 0x53, 0x99, 0x61,
   0x17, 0x2b, 0x04, 0x7e, 0xba, 0x77, 0xd6, 0x26, 0xe1, 0x69, 0x14, 0x63, 0x55, 0x21, 0x0c, 0x7d]

theorem sbox_eq (x : BitVec 8) : AES.S x = SBox[x.toNat] := (sbox_table x).symm

set_option maxRecDepth 100000 in
theorem invSBox_tab : ∀ i : Fin 256, invSBox[SBox[i].toNat] = BitVec.ofNat 8 i := by decide +kernel

/-- The S-box is injective. -/
theorem S_inj {x y : BitVec 8} (h : AES.S x = AES.S y) : x = y := by
  rw [sbox_eq, sbox_eq] at h
  have hx := invSBox_tab ⟨x.toNat, x.isLt⟩
  have hy := invSBox_tab ⟨y.toNat, y.isLt⟩
  simp only [Fin.getElem_fin] at hx hy
  simp only [h] at hx
  rw [hx] at hy
  simpa using hy

set_option maxRecDepth 100000 in
theorem diff_tab : ∀ d : Fin 256, SBox[0] ^^^ SBox[d] = SBox[1] ^^^ SBox[((1 : BitVec 8) ^^^ BitVec.ofNat 8 d).toNat] →
    SBox[0] ^^^ SBox[d] = SBox[2] ^^^ SBox[((2 : BitVec 8) ^^^ BitVec.ofNat 8 d).toNat] → d = 0 := by decide +kernel

/-- No difference of inputs other than zero gives a constant difference of outputs of the S-box. -/
theorem S_diff {d c : BitVec 8} (h : ∀ y, AES.S y ^^^ AES.S (y ^^^ d) = c) : d = 0 := by
  have h0 := h 0
  have h1 := h 1
  have h2 := h 2
  rw [← h0] at h1 h2
  simp only [sbox_eq] at h1 h2
  have := diff_tab ⟨d.toNat, d.isLt⟩ (by simpa using h1.symm) (by simpa using h2.symm)
  apply BitVec.eq_of_toNat_eq
  simpa using congrArg Fin.val this

/-- A keyed S-box `x ↦ S(x + a) + b` determines `a` and `b`. -/
theorem keyed_inj {a b a' b' : BitVec 8} (h : ∀ x, AES.S (x ^^^ a) ^^^ b = AES.S (x ^^^ a') ^^^ b') : a = a' ∧ b = b' := by
  have hd : a ^^^ a' = 0 := S_diff (c := b ^^^ b') fun y => by
    have := h (y ^^^ a)
    rw [BitVec.xor_assoc, BitVec.xor_self, BitVec.xor_zero, BitVec.xor_assoc] at this
    generalize AES.S y = p at this ⊢
    generalize AES.S (y ^^^ (a ^^^ a')) = q at this ⊢
    have e := congrArg (· ^^^ (q ^^^ b)) this
    rw [show p ^^^ b ^^^ (q ^^^ b) = p ^^^ q ^^^ (b ^^^ b) by ac_rfl,
      show q ^^^ b' ^^^ (q ^^^ b) = q ^^^ q ^^^ (b ^^^ b') by ac_rfl, BitVec.xor_self, BitVec.xor_self, BitVec.xor_zero,
      BitVec.zero_xor] at e
    exact e
  have ha : a = a' := by
    have := congrArg (· ^^^ a') hd
    simpa [BitVec.xor_assoc] using this
  subst ha
  exact ⟨rfl, by simpa using h 0⟩

/-- A round key determines the previous one. -/
theorem roundKey_back {key key' : State} {r : Nat} (h : AES.roundKey key (r + 1) = AES.roundKey key' (r + 1)) :
    AES.roundKey key r = AES.roundKey key' r := by
  have hb : ∀ j b, j < 4 → b < 4 → rkByte key (4 * (4 * (r + 1) + j) + b) = rkByte key' (4 * (4 * (r + 1) + j) + b) := by
    intro j b hj hb
    unfold rkByte
    rw [show (4 * (4 * (r + 1) + j) + b) / 16 = r + 1 by omega, h]
  have hx : ∀ a b c d : BitVec 8, a ^^^ b = c ^^^ d → b = d → a = c := by
    intro a b c d e f
    subst f
    have := congrArg (· ^^^ b) e
    simpa [BitVec.xor_assoc] using this
  have hp : ∀ j b, 0 < j → j < 4 → b < 4 → rkByte key (4 * (4 * r + j) + b) = rkByte key' (4 * (4 * r + j) + b) := by
    intro j b h0 hj hb'
    have e := hb j b hj hb'
    rw [rkByte_rec key r j b hj hb', rkByte_rec key' r j b hj hb', if_neg (by omega), if_neg (by omega)] at e
    refine hx _ _ _ _ e ?_
    rw [show 4 * (r + 1) + j - 1 = 4 * (r + 1) + (j - 1) by omega]
    exact hb (j - 1) b (by omega) hb'
  have ha : ∀ j b, j < 4 → b < 4 → rkByte key (4 * (4 * r + j) + b) = rkByte key' (4 * (4 * r + j) + b) := by
    intro j b hj hb'
    rcases Nat.eq_zero_or_pos j with rfl | h0
    · have e := hb 0 b hj hb'
      rw [rkByte_rec key r 0 b hj hb', rkByte_rec key' r 0 b hj hb', if_pos rfl, if_pos rfl] at e
      refine hx _ _ _ _ e ?_
      rw [hp 3 _ (by omega) (by omega) (by omega)]
    · exact hp j b h0 hj hb'
  apply vec_ext
  intro x hx
  have := ha (x / 4) (x % 4) (by omega) (by omega)
  unfold rkByte at this
  rw [show (4 * (4 * r + x / 4) + x % 4) / 16 = r by omega, show (4 * (4 * r + x / 4) + x % 4) % 16 = x by omega] at this
  exact this

/-- Every round key determines the key. -/
theorem roundKey_inj {key key' : State} : ∀ r, AES.roundKey key r = AES.roundKey key' r → key = key'
  | 0, h => h
  | r + 1, h => roundKey_inj r (roundKey_back h)

/-- The shifting of rows is injective. -/
theorem shiftRows_inj {s t : State} (h : ∀ i, i < 16 → (AES.shiftRows s)[i]! = (AES.shiftRows t)[i]!) : s = t := by
  apply vec_ext
  intro x hx
  have := h (x % 4 + 4 * ((x / 4 + 3 * (x % 4)) % 4)) (by omega)
  rw [sr_get s (by omega), sr_get t (by omega)] at this
  have e : (x % 4 + 4 * ((x / 4 + 3 * (x % 4)) % 4)) % 4 + 4 * (((x % 4 + 4 * ((x / 4 + 3 * (x % 4)) % 4)) / 4 +
    (x % 4 + 4 * ((x / 4 + 3 * (x % 4)) % 4)) % 4) % 4) = x := by omega
  rwa [e] at this

/-- Inner rounds of the table encryption, up to and including round `n - 1`. -/
theorem tableRounds_eq (env : Env) {k : Nat → State} {M N : Nat → Nat → M32} {T : Tables} (h : TablesOk k M N T)
    (input : State) (n : Nat) (hn : n ≤ 9) :
    (forUp 0 n input fun i input => do
      let input ← shiftRows env input 0
      forUp 0 4 input fun j input => tableColumn T i j input) = .ok (pre k input n) := by
  rw [← Ok.eq]
  refine Ok.forUp (fun n (s : State) => s = pre k input n) (by omega) rfl ?_ (fun s h => h)
  rintro n s - hn rfl
  rw [shiftRows_eq, C_pure_bind, tableRound_eq h n (by omega), Ok.ok_iff]
  rfl

end WB.aes
