import Verif.Proof.SM4

/-!
# Key schedule and rounds of `sm4.c` (helper lemmas)
-/
namespace WB.sm4
open SM4

attribute [local irreducible] S byte word L L' tau

variable {W : Nat}

/-- The constants as numbers. -/
def ckNat : Vector Nat 32 :=
  #v[0x00070e15, 0x1c232a31, 0x383f464d, 0x545b6269,
   0x70777e85, 0x8c939aa1, 0xa8afb6bd, 0xc4cbd2d9,
   0xe0e7eef5, 0xfc030a11, 0x181f262d, 0x343b4249,
   0x50575e65, 0x6c737a81, 0x888f969d, 0xa4abb2b9,
   0xc0c7ced5, 0xdce3eaf1, 0xf8ff060d, 0x141b2229,
   0x30373e45, 0x4c535a61, 0x686f767d, 0x848b9299,
   0xa0a7aeb5, 0xbcc3cad1, 0xd8dfe6ed, 0xf4fb0209,
   0x10171e25, 0x2c333a41, 0x484f565d, 0x646b7279]

theorem CK_map : (CK : Vector (BitVec W) 32) = ckNat.map (BitVec.ofNat W) := by
  simp [CK, ckNat]

theorem ck_table : ∀ i : Fin 32, BitVec.ofNat 32 ckNat[(i : Nat)] = SM4.CK i := by decide +kernel

theorem low_ofNat (hW : 32 ≤ W) (x : Nat) : low (BitVec.ofNat W x) = BitVec.ofNat 32 x := by
  apply BitVec.eq_of_toNat_eq
  simp only [BitVec.toNat_setWidth, BitVec.toNat_ofNat]
  exact Nat.mod_mod_of_dvd _ (Nat.pow_dvd_pow 2 hW)

theorem low_CK (hW : 32 ≤ W) (i : Nat) (hi : i < 32) : low ((CK : Vector (BitVec W) 32)[i]) = SM4.CK i := by
  simp only [CK_map, Vector.getElem_map, low_ofNat hW]
  exact ck_table ⟨i, hi⟩

/-- Word `j` of a block. -/
def blk (s : Block) (j : Nat) : BitVec 32 := match j with | 0 => s.x0 | 1 => s.x1 | 2 => s.x2 | _ => s.x3

theorem load_eq {N : Nat} (mem : Vector (BitVec 8) N) (off : Nat) :
    load (bytes mem) off = ⟨wordAt mem off, wordAt mem (off + 4), wordAt mem (off + 8), wordAt mem (off + 12)⟩ := rfl

theorem sm4F_ok (hW : 32 ≤ W) (env : Env) (x0 x1 x2 x3 rk : BitVec W) :
    Ok (sm4F env x0 x1 x2 x3 rk) (fun y => low y = low x0 ^^^ L (tau (low x1 ^^^ low x2 ^^^ low x3 ^^^ low rk))) := by
  unfold sm4F
  refine Ok.bind (sm4Lt_ok hW env _) ?_
  intro c hc
  rw [Ok.pure_iff, low_xor, hc]
  simp only [low_xor]

/-- The sliding window: the four words from position `i` on are the block `s`. -/
def Window (k : Vector (BitVec W) 36) (i : Nat) (s : Block) : Prop :=
  ∃ h : i + 3 < 36, low k[i] = s.x0 ∧ low k[i + 1] = s.x1 ∧ low k[i + 2] = s.x2 ∧ low k[i + 3] = s.x3

theorem Window.step {k : Vector (BitVec W) 36} {i : Nat} {s : Block} (h : Window k i s) (hi : i + 4 < 36)
    {y : BitVec W} {z : BitVec 32} (hy : low y = z) : Window (k.set (i + 4) y) (i + 1) ⟨s.x1, s.x2, s.x3, z⟩ := by
  obtain ⟨_, _, h1, h2, h3⟩ := h
  refine ⟨by omega, ?_, ?_, ?_, ?_⟩
  · rw [Vector.getElem_set_ne _ _ (by omega)]; exact h1
  · rw [Vector.getElem_set_ne _ _ (by omega)]; exact h2
  · rw [Vector.getElem_set_ne _ _ (by omega)]; exact h3
  · simp only [show i + 1 + 3 = i + 4 by omega, Vector.getElem_set_self]; exact hy

theorem window0 (k : Vector (BitVec W) 36) (a b c d : BitVec W) :
    Window ((((k.set 0 a).set 1 b).set 2 c).set 3 d) 0 ⟨low a, low b, low c, low d⟩ := by
  refine ⟨by omega, ?_, ?_, ?_, ?_⟩ <;> simp

/-- The contents of a key: round key `i` is the low half of `sk[i]`. -/
def Keys (sk : Vector (BitVec W) 32) (rk : Nat → BitVec 32) : Prop :=
  ∀ i, (hi : i < 32) → low sk[i] = rk i

theorem sm4_setkey_ok (hW : 32 ≤ W) (env : Env) (key : Vector (BitVec 8) 16) (SK : Vector (BitVec W) 32) :
    Ok (sm4_setkey env key SK) (fun SK => Keys SK (roundKey (load (bytes key) 0))) := by
  unfold sm4_setkey
  have f0 : rd (FK : Vector (BitVec W) 4) 0 = .ok (BitVec.ofNat W 0xa3b1bac6) := rfl
  have f1 : rd (FK : Vector (BitVec W) 4) 1 = .ok (BitVec.ofNat W 0x56aa3350) := rfl
  have f2 : rd (FK : Vector (BitVec W) 4) 2 = .ok (BitVec.ofNat W 0x677d9197) := rfl
  have f3 : rd (FK : Vector (BitVec W) 4) 3 = .ok (BitVec.ofNat W 0xb27022dc) := rfl
  have m0 := rd_ok (n := 4) (α := BitVec W)
  simp only [GET_ok key _ (show 0 + 3 < 16 by omega), GET_ok key _ (show 4 + 3 < 16 by omega),
    GET_ok key _ (show 8 + 3 < 16 by omega), GET_ok key _ (show 12 + 3 < 16 by omega), C_pure_bind,
    wr_ok _ _ _ (show 0 < 4 by omega), wr_ok _ _ _ (show 1 < 4 by omega), wr_ok _ _ _ (show 2 < 4 by omega),
    wr_ok _ _ _ (show 3 < 4 by omega), f0, f1, f2, f3, m0 _ 0 (by omega), m0 _ 1 (by omega), m0 _ 2 (by omega),
    m0 _ 3 (by omega), Vector.getElem_set, if_true, if_neg (show ¬ (3 = 0) by omega), if_neg (show ¬ (3 = 1) by omega),
    if_neg (show ¬ (3 = 2) by omega), if_neg (show ¬ (2 = 0) by omega), if_neg (show ¬ (2 = 1) by omega),
    if_neg (show ¬ (1 = 0) by omega), 
    
    
    wr_ok (env.junkArr W 36) 0 _ (by omega), wr_ok (n := 36) _ 1 _ (by omega), wr_ok (n := 36) _ 2 _ (by omega),
    wr_ok (n := 36) _ 3 _ (by omega)]
  rw [Ok.bind_iff]
  refine Ok.forUp (fun i p => Window p.1 i (keyState (load (bytes key) 0) i) ∧
    ∀ j, j < i → (hj : j < 32) → low p.2[j] = roundKey (load (bytes key) 0) j) (by omega) ?_ ?_ ?_
  · refine ⟨?_, by omega⟩
    have := window0 (env.junkArr W 36) ((wordAt key 0).setWidth W ^^^ BitVec.ofNat W 0xa3b1bac6)
      ((wordAt key 4).setWidth W ^^^ BitVec.ofNat W 0x56aa3350)
      ((wordAt key 8).setWidth W ^^^ BitVec.ofNat W 0x677d9197)
      ((wordAt key 12).setWidth W ^^^ BitVec.ofNat W 0xb27022dc)
    simp only [low_xor, low_setWidth hW, low_ofNat hW] at this
    exact this
  · rintro i ⟨k, SK⟩ - hi ⟨hk, hs⟩
    have hk' := hk
    obtain ⟨h3, e0, e1, e2, e3⟩ := hk'
    simp only [rd_ok k _ (show i + 1 < 36 by omega), rd_ok k _ (show i + 2 < 36 by omega), rd_ok k _ h3,
      rd_ok k _ (show i < 36 by omega), rd_ok CK _ hi, C_pure_bind]
    refine Ok.bind (sm4CalciRK_ok hW env _) ?_
    intro t ht
    have hy : low (k[i] ^^^ t) = (keyState (load (bytes key) 0) (i + 1)).x3 := by
      rw [low_xor, ht, low_xor, low_xor, low_xor, e0, e1, e2, e3, low_CK hW i hi]
      rfl
    simp only [wr_ok k _ _ (show i + 4 < 36 by omega), C_pure_bind, 
      rd_ok (k.set (i + 4) (k[i] ^^^ t)) _ (show i + 4 < 36 by omega), Vector.getElem_set_self, 
      wr_ok SK _ _ hi, Ok.pure_iff]
    refine ⟨hk.step (by omega) hy, ?_⟩
    intro j hj hj'
    rw [Vector.getElem_set]
    by_cases e : i = j
    · subst e
      rw [if_pos rfl, hy]
      rfl
    · rw [if_neg e]
      exact hs j (by omega) hj'
  · rintro ⟨k, SK⟩ ⟨_, hs⟩
    rw [Ok.pure_iff]
    exact fun i hi => hs i hi hi

theorem sm4_one_round_ok (hW : 32 ≤ W) (env : Env) (sk : Vector (BitVec W) 32) (rk : Nat → BitVec 32)
    (hk : Keys sk rk) {N : Nat} (mem : Vector (BitVec 8) N) (inp out : Nat) (hi : inp + 16 ≤ N) (ho : out + 16 ≤ N) :
    Ok (sm4_one_round env sk mem inp out) (fun mem' => ∀ j, (hj : j < N) →
      mem'[j] = if out ≤ j ∧ j < out + 16 then (crypt rk (load (bytes mem) inp)).byte (j - out) else mem[j]) := by
  unfold sm4_one_round
  simp only [GET_ok mem _ (show inp + 3 < N by omega), GET_ok mem _ (show inp + 4 + 3 < N by omega),
    GET_ok mem _ (show inp + 8 + 3 < N by omega), GET_ok mem _ (show inp + 12 + 3 < N by omega), C_pure_bind,
    wr_ok (n := 36) _ 0 _ (by omega), wr_ok (n := 36) _ 1 _ (by omega), wr_ok (n := 36) _ 2 _ (by omega),
    wr_ok (n := 36) _ 3 _ (by omega)]
  rw [Ok.bind_iff]
  refine Ok.forUp (fun i u => Window u i (rounds rk i (load (bytes mem) inp))) (by omega) ?_ ?_ ?_
  · have := window0 (Vector.replicate 36 (0 : BitVec W)) ((wordAt mem inp).setWidth W)
      ((wordAt mem (inp + 4)).setWidth W) ((wordAt mem (inp + 8)).setWidth W) ((wordAt mem (inp + 12)).setWidth W)
    simp only [low_setWidth hW] at this
    exact this
  · rintro i u - hi hw
    have hw' := hw
    obtain ⟨h3, e0, e1, e2, e3⟩ := hw'
    simp only [rd_ok u _ (show i + 1 < 36 by omega), rd_ok u _ (show i + 2 < 36 by omega), rd_ok u _ h3,
      rd_ok u _ (show i < 36 by omega), rd_ok sk _ hi, C_pure_bind]
    refine Ok.bind (sm4F_ok hW env _ _ _ _ _) ?_
    intro y hy
    rw [wr_ok u _ _ (show i + 4 < 36 by omega), Ok.ok_iff]
    refine hw.step (by omega) ?_
    rw [hy, e0, e1, e2, e3, hk i hi]
  · rintro u ⟨_, e0, e1, e2, e3⟩
    simp only [rd_ok u _ (show 35 < 36 by omega), rd_ok u _ (show 34 < 36 by omega), rd_ok u _ (show 33 < 36 by omega),
      rd_ok u _ (show 32 < 36 by omega), C_pure_bind]
    refine Ok.bind (PUT_ok _ mem out (by omega)) ?_
    intro m1 h1
    refine Ok.bind (PUT_ok _ m1 (out + 4) (by omega)) ?_
    intro m2 h2
    refine Ok.bind (PUT_ok _ m2 (out + 8) (by omega)) ?_
    intro m3 h3
    refine (PUT_ok _ m3 (out + 12) (by omega)).mono ?_
    intro m4 h4 j hj
    rw [h4 j hj, h3 j hj, h2 j hj, h1 j hj]
    unfold Block.byte crypt Block.reverse
    generalize rounds rk 32 (load (bytes mem) inp) = s at *
    simp only at e0 e1 e2 e3 ⊢
    by_cases c : out ≤ j ∧ j < out + 16
    · rw [if_pos c]
      by_cases c3 : out + 12 ≤ j
      · rw [if_pos (by omega), show (j - out) / 4 = 3 by omega, show (j - out) % 4 = j - (out + 12) by omega]
        exact congrArg (fun z => byte z _) e0
      · rw [if_neg (by omega)]
        by_cases c2 : out + 8 ≤ j
        · rw [if_pos (by omega), show (j - out) / 4 = 2 by omega, show (j - out) % 4 = j - (out + 8) by omega]
          exact congrArg (fun z => byte z _) e1
        · rw [if_neg (by omega)]
          by_cases c1 : out + 4 ≤ j
          · rw [if_pos (by omega), show (j - out) / 4 = 1 by omega, show (j - out) % 4 = j - (out + 4) by omega]
            exact congrArg (fun z => byte z _) e2
          · rw [if_neg (by omega), if_pos (by omega), show (j - out) / 4 = 0 by omega,
              show (j - out) % 4 = j - out by omega]
            exact congrArg (fun z => byte z _) e3
    · rw [if_neg c, if_neg (by omega), if_neg (by omega), if_neg (by omega), if_neg (by omega)]

end WB.sm4
