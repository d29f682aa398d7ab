import Verif.Proof.SM4Box

/-!
# `sm4.c` computes SM4 (helper lemmas)
-/
namespace WB.sm4
open SM4

/-- The low 32 bits of an `unsigned long`. -/
abbrev low {W : Nat} (x : BitVec W) : BitVec 32 := x.setWidth 32

variable {W : Nat}

/-- The value read by `GET_ULONG_BE`. -/
def beWord (b0 b1 b2 b3 : BitVec 8) : BitVec W :=
  b0.setWidth W <<< 24 ||| b1.setWidth W <<< 16 ||| b2.setWidth W <<< 8 ||| b3.setWidth W

theorem getLsbD_word (b0 b1 b2 b3 : BitVec 8) (i : Nat) :
    (word b0 b1 b2 b3).getLsbD i =
      if i < 8 then b3.getLsbD i else if i < 16 then b2.getLsbD (i - 8)
      else if i < 24 then b1.getLsbD (i - 16) else b0.getLsbD (i - 24) := by
  unfold word
  simp only [BitVec.getLsbD_append]
  have e1 : (i - 8 < 8) = (i < 16) ∨ i < 8 := by
    by_cases h : i < 8
    · exact .inr h
    · left; simp only [eq_iff_iff]; omega
  by_cases h1 : i < 8
  · simp [h1]
  · by_cases h2 : i < 16
    · have : i - 8 < 8 := by omega
      simp [h1, h2, this]
    · have a2 : ¬ (i - 8 < 8) := by omega
      by_cases h3 : i < 24
      · have : i - 8 - 8 < 8 := by omega
        rw [if_neg h1, if_neg a2, if_pos this, if_neg h1, if_neg h2, if_pos h3, show i - 8 - 8 = i - 16 by omega]
      · have : ¬ (i - 8 - 8 < 8) := by omega
        simp [h1, h2, a2, h3, this, show i - 8 - 8 - 8 = i - 24 by omega]

theorem beWord_eq (b0 b1 b2 b3 : BitVec 8) :
    (beWord b0 b1 b2 b3 : BitVec W) = (word b0 b1 b2 b3).setWidth W := by
  unfold beWord
  apply BitVec.eq_of_getLsbD_eq
  intro i hi
  simp only [BitVec.getLsbD_or, BitVec.getLsbD_shiftLeft, BitVec.getLsbD_setWidth, getLsbD_word]
  by_cases h1 : i < 8
  · have : i < 16 := by omega
    have : i < 24 := by omega
    simp [*]
  · have e1 : b3.getLsbD i = false := BitVec.getLsbD_of_ge _ _ (by omega)
    by_cases h2 : i < 16
    · have : i < 24 := by omega
      have : i - 8 < W := by omega
      simp [*]
    · have e2 : b2.getLsbD (i - 8) = false := BitVec.getLsbD_of_ge _ _ (by omega)
      by_cases h3 : i < 24
      · have : i - 16 < W := by omega
        simp [*]
      · have e3 : b1.getLsbD (i - 16) = false := BitVec.getLsbD_of_ge _ _ (by omega)
        have : i - 24 < W := by omega
        simp [*]

theorem low_xor (x y : BitVec W) : low (x ^^^ y) = low x ^^^ low y := BitVec.setWidth_xor ..

theorem low_setWidth (hW : 32 ≤ W) (y : BitVec 32) : low (y.setWidth W) = y := by
  apply BitVec.eq_of_getLsbD_eq
  intro i hi
  simp [show i < W by omega, hi]

theorem getLsbD_mask (i : Nat) (hi : i < W) : (0xFFFFFFFF : BitVec W).getLsbD i = decide (i < 32) := by
  have : (0xFFFFFFFF : BitVec W) = BitVec.ofNat W (2 ^ 32 - 1) := rfl
  rw [this, BitVec.getLsbD_ofNat, Nat.testBit_two_pow_sub_one]
  simp [hi]

theorem low_ROTL (hW : 32 ≤ W) (y : BitVec 32) (n : Nat) (hn : n < 32) :
    low (ROTL (y.setWidth W) n) = y.rotateLeft n := by
  unfold ROTL SHL
  apply BitVec.eq_of_getLsbD_eq
  intro i hi
  have hiW : i < W := by omega
  rw [BitVec.getLsbD_rotateLeft, Nat.mod_eq_of_lt hn]
  simp only [BitVec.getLsbD_or, BitVec.getLsbD_shiftLeft, BitVec.getLsbD_setWidth, BitVec.getLsbD_and,
    BitVec.getLsbD_ushiftRight, hi, hiW, decide_true, Bool.true_and]
  by_cases h : i < n
  · simp [h, show 32 - n + i < W by omega]
  · have e : y.getLsbD (32 - n + i) = false := BitVec.getLsbD_of_ge _ _ (by omega)
    rw [getLsbD_mask _ (by omega)]
    simp [h, e, show i - n < W by omega, show i - n < 32 by omega]

theorem byte_put (x : BitVec W) (k : Nat) (hk : k < 4) :
    (x >>> (24 - 8 * k)).setWidth 8 = byte (low x) k := by
  unfold byte
  apply BitVec.eq_of_getLsbD_eq
  intro i hi
  simp [hi, show 24 - 8 * k + i < 32 by omega]

/-! ## Buffers -/

/-- Four bytes of a buffer as a word. -/
def wordAt {N : Nat} (mem : Vector (BitVec 8) N) (off : Nat) : BitVec 32 :=
  word (bytes mem off) (bytes mem (off + 1)) (bytes mem (off + 2)) (bytes mem (off + 3))

theorem GET_ok {N : Nat} (b : Vector (BitVec 8) N) (i : Nat) (h : i + 3 < N) :
    (GET_ULONG_BE b i : C (BitVec W)) = .ok ((wordAt b i).setWidth W) := by
  unfold GET_ULONG_BE wordAt
  rw [← beWord_eq]
  have h0 : i < N := by omega
  have h1 : i + 1 < N := by omega
  have h2 : i + 2 < N := by omega
  simp only [rd_ok _ _ h0, rd_ok _ _ h1, rd_ok _ _ h2, rd_ok _ _ h, C_pure_bind, C_pure_eq, bytes,
    Vector.getElem?_eq_getElem, h0, h1, h2, h, Option.getD_some]
  rfl

theorem PUT_ok {N : Nat} (n : BitVec W) (b : Vector (BitVec 8) N) (i : Nat) (h : i + 3 < N) :
    Ok (PUT_ULONG_BE n b i) (fun b' => ∀ j, (hj : j < N) →
      b'[j] = if i ≤ j ∧ j < i + 4 then byte (low n) (j - i) else b[j]) := by
  unfold PUT_ULONG_BE
  have h0 : i < N := by omega
  have h1 : i + 1 < N := by omega
  have h2 : i + 2 < N := by omega
  simp only [wr_ok _ _ _ h0, wr_ok _ _ _ h1, wr_ok _ _ _ h2, wr_ok _ _ _ h, C_pure_bind, Ok.ok_iff]
  intro j hj
  simp only [Vector.getElem_set]
  have b0 := byte_put n 0 (by omega)
  have b1 := byte_put n 1 (by omega)
  have b2 := byte_put n 2 (by omega)
  have b3 := byte_put n 3 (by omega)
  by_cases c3 : i + 3 = j
  · subst c3; simp; simpa using b3
  · by_cases c2 : i + 2 = j
    · subst c2; simp; simpa using b2
    · by_cases c1 : i + 1 = j
      · subst c1; simp; simpa using b1
      · by_cases c0 : i = j
        · subst c0; simp; simpa using b0
        · have : ¬ (i ≤ j ∧ j < i + 4) := by omega
          simp [*]

/-! ## Words -/

attribute [local irreducible] S byte word

theorem wordAt_set4 (v : Vector (BitVec 8) 4) (s0 s1 s2 s3 : BitVec 8) :
    wordAt ((((v.set 0 s0).set 1 s1).set 2 s2).set 3 s3) 0 = word s0 s1 s2 s3 := by
  simp [wordAt, bytes]

theorem tau_gen (env : Env) (sb : BitVec 8 → C (BitVec 8)) (g : BitVec 8 → BitVec 8)
    (hsb : ∀ x, sb x = .ok (g x)) (ka : BitVec W) (f : BitVec W → BitVec W) :
    (do
      let a := env.junkArr 8 4
      let b := env.junkArr 8 4
      let a ← PUT_ULONG_BE ka a 0
      let b ← wr b 0 (← sb (← rd a 0))
      let b ← wr b 1 (← sb (← rd a 1))
      let b ← wr b 2 (← sb (← rd a 2))
      let b ← wr b 3 (← sb (← rd a 3))
      let bb : BitVec W ← GET_ULONG_BE b 0
      pure (f bb) : C (BitVec W)) =
        .ok (f ((word (g (byte (low ka) 0)) (g (byte (low ka) 1)) (g (byte (low ka) 2))
          (g (byte (low ka) 3))).setWidth W)) := by
  obtain ⟨a, ha, hb⟩ := PUT_ok ka (env.junkArr 8 4) 0 (by omega)
  simp only [ha, C_pure_bind, rd_ok a _ (show 0 < 4 by omega), rd_ok a _ (show 1 < 4 by omega),
    rd_ok a _ (show 2 < 4 by omega), rd_ok a _ (show 3 < 4 by omega), hsb,
    wr_ok _ _ _ (show 0 < 4 by omega), wr_ok _ _ _ (show 1 < 4 by omega),
    wr_ok _ _ _ (show 2 < 4 by omega), wr_ok _ _ _ (show 3 < 4 by omega), GET_ok _ _ (show 0 + 3 < 4 by omega),
    C_pure_eq]
  rw [wordAt_set4, hb 0 (by omega), hb 1 (by omega), hb 2 (by omega), hb 3 (by omega)]
  simp only [Nat.zero_le, true_and, if_pos (show 0 < 0 + 4 by omega), if_pos (show 1 < 0 + 4 by omega),
    if_pos (show 2 < 0 + 4 by omega), if_pos (show 3 < 0 + 4 by omega), Nat.sub_zero]

theorem sm4Lt_ok (hW : 32 ≤ W) (env : Env) (ka : BitVec W) :
    Ok (sm4Lt env ka) (fun c => low c = L (tau (low ka))) := by
  unfold sm4Lt
  rw [tau_gen env sm4Sbox S sm4Sbox_eq ka (fun bb => bb ^^^ ROTL bb 2 ^^^ ROTL bb 10 ^^^ ROTL bb 18 ^^^ ROTL bb 24), Ok.ok_iff]
  simp only [low_xor, low_ROTL hW _ _ (show 2 < 32 by omega), low_ROTL hW _ _ (show 10 < 32 by omega),
    low_ROTL hW _ _ (show 18 < 32 by omega), low_ROTL hW _ _ (show 24 < 32 by omega), low_setWidth hW]
  rfl

theorem sm4CalciRK_ok (hW : 32 ≤ W) (env : Env) (ka : BitVec W) :
    Ok (sm4CalciRK env ka) (fun c => low c = L' (tau (low ka))) := by
  unfold sm4CalciRK
  rw [tau_gen env sm4Sbox S sm4Sbox_eq ka (fun bb => bb ^^^ ROTL bb 13 ^^^ ROTL bb 23), Ok.ok_iff]
  simp only [low_xor, low_ROTL hW _ _ (show 13 < 32 by omega), low_ROTL hW _ _ (show 23 < 32 by omega),
    low_setWidth hW]
  rfl

end WB.sm4
