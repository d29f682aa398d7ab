import Verif.Proof.AESPlain

/-!
# State operations and key expansion of the white-box AES demo (helper lemmas)
-/
namespace WB.aes
open AES (State)

/-! ## Arrays -/

theorem fill {N : Nat} (n : Nat) (mem : Vector (BitVec 8) N) (off : Nat) (f : Nat → BitVec 8)
    (body : Nat → Vector (BitVec 8) N → C (Vector (BitVec 8) N)) (hN : off + n ≤ N)
    (hb : ∀ i m, i < n → (∀ x, x < N → m[x]! = if off ≤ x ∧ x < off + i then f (x - off) else mem[x]!) →
      body i m = wr m (off + i) (f i)) :
    Ok (forUp 0 n mem body) (fun m => ∀ x, x < N → m[x]! = if off ≤ x ∧ x < off + n then f (x - off) else mem[x]!) := by
  refine Ok.forUp (fun i (m : Vector (BitVec 8) N) =>
    ∀ x, x < N → m[x]! = if off ≤ x ∧ x < off + i then f (x - off) else mem[x]!) (by omega) ?_ ?_ (fun m h => h)
  · intro x _
    rw [if_neg (by omega)]
  · intro i m _ hi h
    rw [hb i m hi h]
    obtain ⟨m', hm, gm⟩ := wr_get m (i := off + i) (by omega) (f i)
    rw [hm, Ok.ok_iff]
    intro x hx
    rw [gm x hx]
    by_cases c : x = off + i
    · rw [if_pos c, if_pos (by omega), c]
      congr 1; omega
    · rw [if_neg c, h x hx]
      by_cases c2 : off ≤ x ∧ x < off + i
      · rw [if_pos c2, if_pos (by omega)]
      · rw [if_neg c2, if_neg (by omega)]

theorem vec_ext {N : Nat} {a b : Vector (BitVec 8) N} (h : ∀ x, x < N → a[x]! = b[x]!) : a = b := by
  apply Vector.ext
  intro i hi
  have := h i hi
  rwa [getElem!_pos a i hi, getElem!_pos b i hi] at this

theorem ofFn_get {n : Nat} (f : Fin n → BitVec 8) {i : Nat} (h : i < n) : (Vector.ofFn f)[i]! = f ⟨i, h⟩ := by
  rw [getElem!_pos _ i h, Vector.getElem_ofFn]

/-- The 16 bytes of `mem` that start at `off`. -/
def blk {N : Nat} (mem : Vector (BitVec 8) N) (off : Nat) : State := Vector.ofFn fun i => mem[off + i.val]!

theorem blk_get {N : Nat} (mem : Vector (BitVec 8) N) (off : Nat) {i : Nat} (h : i < 16) :
    (blk mem off)[i]! = mem[off + i]! := ofFn_get _ h

theorem blk_zero (s : State) : blk s 0 = s := by
  apply vec_ext
  intro x hx
  rw [blk_get _ _ hx, Nat.zero_add]

/-! ## State operations -/

theorem subBytes_eq (s : State) : subBytes s = .ok (AES.subBytes s) := by
  unfold subBytes
  obtain ⟨m, hm, h⟩ := fill 16 s 0 (fun i => AES.S s[i]!)
    (fun i state => do wr state i (← rd SBox (← rd state i).toNat)) (by omega) (by
      intro i m hi h
      rw [rd_get m hi, C_pure_bind, rd_SBox, C_pure_bind, Nat.zero_add, h i hi, if_neg (by omega)])
  rw [hm]
  congr 1
  apply vec_ext
  intro x hx
  rw [h x hx, if_pos (by omega)]
  unfold AES.subBytes
  rw [ofFn_get _ hx, Nat.sub_zero, getElem!_pos s x hx]
  rfl

theorem addRoundKey_eq {N : Nat} (s : State) (key : Vector (BitVec 8) N) (off : Nat) (hN : off + 16 ≤ N) :
    addRoundKey s key off = .ok (AES.addRoundKey s (blk key off)) := by
  unfold addRoundKey
  obtain ⟨m, hm, h⟩ := fill 16 s 0 (fun i => s[i]! ^^^ key[off + i]!)
    (fun i state => do wr state i ((← rd state i) ^^^ (← rd key (off + i)))) (by omega) (by
      intro i m hi h
      rw [rd_get m hi, C_pure_bind, rd_get key (by omega), C_pure_bind, Nat.zero_add, h i hi, if_neg (by omega)])
  rw [hm]
  congr 1
  apply vec_ext
  intro x hx
  rw [h x hx, if_pos (by omega)]
  unfold AES.addRoundKey
  rw [ofFn_get _ hx, Nat.sub_zero, getElem!_pos s x hx, ← blk_get key off hx, getElem!_pos _ x hx]
  rfl

theorem shiftTab_eq (i : Nat) (hi : i < 16) : rd shiftTab i = .ok (i % 4 + 4 * ((i / 4 + i % 4) % 4)) := by
  have : ∀ i : Fin 16, shiftTab[(i : Nat)]'i.isLt = i % 4 + 4 * ((i / 4 + i % 4) % 4) := by clear hi i; decide
  rw [rd_ok _ _ hi, this ⟨i, hi⟩]

theorem sr_get (s : State) {i : Nat} (hi : i < 16) :
    (AES.shiftRows s)[i]! = s[i % 4 + 4 * ((i / 4 + i % 4) % 4)]! := by
  unfold AES.shiftRows
  rw [ofFn_get _ hi, getElem!_pos s _ (by omega)]
  rfl

theorem shiftRows_ok {N : Nat} (env : Env) (mem : Vector (BitVec 8) N) (off : Nat) (hN : off + 16 ≤ N) :
    Ok (shiftRows env mem off) (fun m => ∀ x, x < N →
      m[x]! = if off ≤ x ∧ x < off + 16 then (AES.shiftRows (blk mem off))[x - off]! else mem[x]!) := by
  unfold shiftRows
  refine Ok.bind (fill 16 (env.junkArr 8 16) 0 (fun i => (AES.shiftRows (blk mem off))[i]!) _ (by omega) ?_) ?_
  · intro i m hi h
    rw [shiftTab_eq i hi, C_pure_bind, rd_get mem (by omega), C_pure_bind, Nat.zero_add, sr_get _ hi, blk_get _ _ (by omega)]
  · intro out ho
    refine (fill 16 mem off (fun i => (AES.shiftRows (blk mem off))[i]!) _ hN ?_).mono (fun m h => h)
    intro i m hi h
    rw [rd_get out hi, C_pure_bind, ho i hi, if_pos (by omega), Nat.sub_zero]

theorem shiftRows_eq (env : Env) (s : State) : shiftRows env s 0 = .ok (AES.shiftRows s) := by
  obtain ⟨m, hm, h⟩ := shiftRows_ok env s 0 (by omega)
  rw [hm]
  congr 1
  apply vec_ext
  intro x hx
  rw [h x hx, if_pos (by omega), blk_zero, Nat.sub_zero]

theorem cell_get (s : State) (r c : Nat) : AES.cell s r c = s[r % 4 + 4 * (c % 4)]! := by
  rw [getElem!_pos s _ (by omega)]
  rfl

theorem copy16 (s out : State) : (forUp 0 16 s fun i state => do wr state i (← rd out i)) = .ok out := by
  obtain ⟨m, hm, h⟩ := fill 16 s 0 (fun i => out[i]!) (fun i state => do wr state i (← rd out i)) (by omega) (by
      intro i m hi h
      rw [rd_get out hi, C_pure_bind, Nat.zero_add])
  rw [hm]
  congr 1
  apply vec_ext
  intro x hx
  rw [h x hx, if_pos (by omega), Nat.sub_zero]

theorem mixColumns_eq (env : Env) (s : State) : mixColumns env s = .ok (AES.mixColumns s) := by
  unfold mixColumns
  have : Ok (forUp 0 4 (env.junkArr 8 16) fun i out => do
    let s0 ← rd s (4 * i)
    let s1 ← rd s (4 * i + 1)
    let s2 ← rd s (4 * i + 2)
    let s3 ← rd s (4 * i + 3)
    let out ← wr out (4 * i) ((← gMul 2 s0) ^^^ (← gMul 3 s1) ^^^ s2 ^^^ s3)
    let out ← wr out (4 * i + 1) (s0 ^^^ (← gMul 2 s1) ^^^ (← gMul 3 s2) ^^^ s3)
    let out ← wr out (4 * i + 2) (s0 ^^^ s1 ^^^ (← gMul 2 s2) ^^^ (← gMul 3 s3))
    wr out (4 * i + 3) ((← gMul 3 s0) ^^^ s1 ^^^ s2 ^^^ (← gMul 2 s3))) (fun out => out = AES.mixColumns s) := by
    refine Ok.forUp (fun i (m : Vector (BitVec 8) 16) => ∀ x, x < 4 * i → m[x]! = (AES.mixColumns s)[x]!)
      (by omega) (by omega) ?_ (fun m h => vec_ext fun x hx => h x (by omega))
    intro i m _ hi h
    rw [rd_get s (show 4 * i < 16 by omega), C_pure_bind, rd_get s (show 4 * i + 1 < 16 by omega), C_pure_bind,
      rd_get s (show 4 * i + 2 < 16 by omega), C_pure_bind, rd_get s (show 4 * i + 3 < 16 by omega), C_pure_bind]
    simp only [gMul_eq, C_pure_bind]
    obtain ⟨m1, h1, g1⟩ := wr_get m (i := 4 * i) (by omega)
      (gfMul 27 2 s[4 * i]! ^^^ gfMul 27 3 s[4 * i + 1]! ^^^ s[4 * i + 2]! ^^^ s[4 * i + 3]!)
    rw [h1, C_pure_bind]
    obtain ⟨m2, h2, g2⟩ := wr_get m1 (i := 4 * i + 1) (by omega)
      (s[4 * i]! ^^^ gfMul 27 2 s[4 * i + 1]! ^^^ gfMul 27 3 s[4 * i + 2]! ^^^ s[4 * i + 3]!)
    rw [h2, C_pure_bind]
    obtain ⟨m3, h3, g3⟩ := wr_get m2 (i := 4 * i + 2) (by omega)
      (s[4 * i]! ^^^ s[4 * i + 1]! ^^^ gfMul 27 2 s[4 * i + 2]! ^^^ gfMul 27 3 s[4 * i + 3]!)
    rw [h3, C_pure_bind]
    obtain ⟨m4, h4, g4⟩ := wr_get m3 (i := 4 * i + 3) (by omega)
      (gfMul 27 3 s[4 * i]! ^^^ s[4 * i + 1]! ^^^ s[4 * i + 2]! ^^^ gfMul 27 2 s[4 * i + 3]!)
    rw [h4, Ok.ok_iff]
    intro x hx
    have hx16 : x < 16 := by omega
    rw [g4 x hx16, g3 x hx16, g2 x hx16, g1 x hx16]
    by_cases c : x < 4 * i
    · rw [if_neg (by omega), if_neg (by omega), if_neg (by omega), if_neg (by omega)]
      exact h x c
    · have e : (AES.mixColumns s)[x]! = _ := ofFn_get _ hx16
      rw [e]
      simp only [cell_get]
      have hd : x / 4 = i := by omega
      have hi4 : i % 4 = i := by omega
      rw [hd, hi4]
      obtain rfl | rfl | rfl | rfl : x = 4 * i ∨ x = 4 * i + 1 ∨ x = 4 * i + 2 ∨ x = 4 * i + 3 := by omega
      · rw [if_neg (by omega), if_neg (by omega), if_neg (by omega), if_pos rfl,
          show 4 * i % 4 + 4 * i = 4 * i by omega, show (4 * i + 1) % 4 + 4 * i = 4 * i + 1 by omega,
          show (4 * i + 2) % 4 + 4 * i = 4 * i + 2 by omega, show (4 * i + 3) % 4 + 4 * i = 4 * i + 3 by omega]
      · rw [if_neg (by omega), if_neg (by omega), if_pos rfl,
          show (4 * i + 1) % 4 + 4 * i = 4 * i + 1 by omega, show (4 * i + 1 + 1) % 4 + 4 * i = 4 * i + 2 by omega,
          show (4 * i + 1 + 2) % 4 + 4 * i = 4 * i + 3 by omega, show (4 * i + 1 + 3) % 4 + 4 * i = 4 * i by omega]
        ac_rfl
      · rw [if_neg (by omega), if_pos rfl,
          show (4 * i + 2) % 4 + 4 * i = 4 * i + 2 by omega, show (4 * i + 2 + 1) % 4 + 4 * i = 4 * i + 3 by omega,
          show (4 * i + 2 + 2) % 4 + 4 * i = 4 * i by omega, show (4 * i + 2 + 3) % 4 + 4 * i = 4 * i + 1 by omega]
        ac_rfl
      · rw [if_pos rfl,
          show (4 * i + 3) % 4 + 4 * i = 4 * i + 3 by omega, show (4 * i + 3 + 1) % 4 + 4 * i = 4 * i by omega,
          show (4 * i + 3 + 2) % 4 + 4 * i = 4 * i + 1 by omega, show (4 * i + 3 + 3) % 4 + 4 * i = 4 * i + 2 by omega]
        ac_rfl
  obtain ⟨out, ho, rfl⟩ := this
  rw [ho, C_pure_bind, copy16]

/-! ## Key expansion -/

/-- Byte `t` of the expanded key. -/
def rkByte (key : State) (t : Nat) : BitVec 8 := (AES.roundKey key (t / 16))[t % 16]!

theorem app4 (w0 w1 w2 w3 : Vector (BitVec 8) 4) (b : Nat) (hb : b < 4) :
    (w0 ++ w1 ++ w2 ++ w3)[4 * 0 + b]! = w0[b] ∧ (w0 ++ w1 ++ w2 ++ w3)[4 * 1 + b]! = w1[b] ∧
      (w0 ++ w1 ++ w2 ++ w3)[4 * 2 + b]! = w2[b] ∧ (w0 ++ w1 ++ w2 ++ w3)[4 * 3 + b]! = w3[b] := by
  refine ⟨?_, ?_, ?_, ?_⟩
  · rw [getElem!_pos _ _ (by omega), Vector.getElem_append_left (by omega), Vector.getElem_append_left (by omega),
      Vector.getElem_append_left (by omega)]
    simp
  · rw [getElem!_pos _ _ (by omega), Vector.getElem_append_left (by omega), Vector.getElem_append_left (by omega),
      Vector.getElem_append_right (by omega) (by omega)]
    simp
  · rw [getElem!_pos _ _ (by omega), Vector.getElem_append_left (by omega),
      Vector.getElem_append_right (by omega) (by omega)]
    simp
  · rw [getElem!_pos _ _ (by omega), Vector.getElem_append_right (by omega) (by omega)]
    simp

/-- The word recursion of the key expansion, byte by byte; `i = 4 (r + 1) + j` is the number of the word. -/
theorem rkByte_rec (key : State) (r j b : Nat) (hj : j < 4) (hb : b < 4) :
    rkByte key (4 * (4 * (r + 1) + j) + b) = rkByte key (4 * (4 * r + j) + b) ^^^
      (if j = 0 then AES.S (rkByte key (4 * (4 * r + 3) + (b + 1) % 4)) ^^^ (if b = 0 then AES.rcon (r + 1) else 0)
       else rkByte key (4 * (4 * (r + 1) + j - 1) + b)) := by
  unfold rkByte
  have q0 : ∀ j b, j < 4 → b < 4 → (4 * (4 * r + j) + b) / 16 = r := fun j b _ _ => by omega
  have q1 : ∀ j b, j < 4 → b < 4 → (4 * (4 * r + j) + b) % 16 = 4 * j + b := fun j b _ _ => by omega
  have q2 : ∀ j b, j < 4 → b < 4 → (4 * (4 * (r + 1) + j) + b) / 16 = r + 1 := fun j b _ _ => by omega
  have q3 : ∀ j b, j < 4 → b < 4 → (4 * (4 * (r + 1) + j) + b) % 16 = 4 * j + b := fun j b _ _ => by omega
  rw [q0 j b hj hb, q1 j b hj hb, q2 j b hj hb, q3 j b hj hb, q0 3 _ (by omega) (by omega), q1 3 _ (by omega) (by omega)]
  obtain rfl | rfl | rfl | rfl : j = 0 ∨ j = 1 ∨ j = 2 ∨ j = 3 := by omega
  · rw [if_pos rfl]
    simp only [AES.roundKey]
    generalize AES.roundKey key r = k
    rw [(app4 _ _ _ _ _ hb).1]
    obtain rfl | rfl | rfl | rfl : b = 0 ∨ b = 1 ∨ b = 2 ∨ b = 3 := by omega
    all_goals simp [cell_get, BitVec.xor_assoc]
  · rw [if_neg (by omega), show 4 * (r + 1) + 1 - 1 = 4 * (r + 1) + 0 from rfl, q2 0 b (by omega) hb,
      q3 0 b (by omega) hb]
    simp only [AES.roundKey]
    generalize AES.roundKey key r = k
    rw [(app4 _ _ _ _ _ hb).2.1, (app4 _ _ _ _ _ hb).1]
    obtain rfl | rfl | rfl | rfl : b = 0 ∨ b = 1 ∨ b = 2 ∨ b = 3 := by omega
    all_goals simp [cell_get]
  · rw [if_neg (by omega), show 4 * (r + 1) + 2 - 1 = 4 * (r + 1) + 1 from rfl, q2 1 b (by omega) hb,
      q3 1 b (by omega) hb]
    simp only [AES.roundKey]
    generalize AES.roundKey key r = k
    rw [(app4 _ _ _ _ _ hb).2.2.1, (app4 _ _ _ _ _ hb).2.1]
    obtain rfl | rfl | rfl | rfl : b = 0 ∨ b = 1 ∨ b = 2 ∨ b = 3 := by omega
    all_goals simp [cell_get]
  · rw [if_neg (by omega), show 4 * (r + 1) + 3 - 1 = 4 * (r + 1) + 2 from rfl, q2 2 b (by omega) hb,
      q3 2 b (by omega) hb]
    simp only [AES.roundKey]
    generalize AES.roundKey key r = k
    rw [(app4 _ _ _ _ _ hb).2.2.2, (app4 _ _ _ _ _ hb).2.2.1]
    obtain rfl | rfl | rfl | rfl : b = 0 ∨ b = 1 ∨ b = 2 ∨ b = 3 := by omega
    all_goals simp [cell_get]

theorem rCon_tab : ∀ r : Fin 10, rCon[(r : Nat) + 1]'(by omega) = AES.rcon (r + 1) := by decide

theorem rCon_eq (r : Nat) (hr : r < 10) : rd rCon (r + 1) = .ok (AES.rcon (r + 1)) := by
  rw [rd_ok _ _ (show r + 1 < 11 by omega), rCon_tab ⟨r, hr⟩]

theorem wr4_get {N : Nat} (a : Vector (BitVec 8) N) {i : Nat} (h : i + 3 < N) (v0 v1 v2 v3 : BitVec 8) :
    ∃ a1 a2 a3 a4, wr a i v0 = .ok a1 ∧ wr a1 (i + 1) v1 = .ok a2 ∧ wr a2 (i + 2) v2 = .ok a3 ∧
      wr a3 (i + 3) v3 = .ok a4 ∧ (∀ x, x < N → (x < i ∨ i + 4 ≤ x) →
        a1[x]! = a[x]! ∧ a2[x]! = a[x]! ∧ a3[x]! = a[x]! ∧ a4[x]! = a[x]!) ∧
      a4[i]! = v0 ∧ a4[i + 1]! = v1 ∧ a4[i + 2]! = v2 ∧ a4[i + 3]! = v3 := by
  obtain ⟨a1, h1, g1⟩ := wr_get a (i := i) (by omega) v0
  obtain ⟨a2, h2, g2⟩ := wr_get a1 (i := i + 1) (by omega) v1
  obtain ⟨a3, h3, g3⟩ := wr_get a2 (i := i + 2) (by omega) v2
  obtain ⟨a4, h4, g4⟩ := wr_get a3 (i := i + 3) (by omega) v3
  refine ⟨a1, a2, a3, a4, h1, h2, h3, h4, ?_, ?_, ?_, ?_, ?_⟩
  · intro x hx hd
    have e1 : a1[x]! = a[x]! := by rw [g1 x hx, if_neg (by omega)]
    have e2 : a2[x]! = a[x]! := by rw [g2 x hx, if_neg (by omega), e1]
    have e3 : a3[x]! = a[x]! := by rw [g3 x hx, if_neg (by omega), e2]
    have e4 : a4[x]! = a[x]! := by rw [g4 x hx, if_neg (by omega), e3]
    exact ⟨e1, e2, e3, e4⟩
  · rw [g4 _ (by omega), if_neg (by omega), g3 _ (by omega), if_neg (by omega), g2 _ (by omega), if_neg (by omega),
      g1 _ (by omega), if_pos rfl]
  · rw [g4 _ (by omega), if_neg (by omega), g3 _ (by omega), if_neg (by omega), g2 _ (by omega), if_pos rfl]
  · rw [g4 _ (by omega), if_neg (by omega), g3 _ (by omega), if_pos rfl]
  · rw [g4 _ (by omega), if_pos rfl]

theorem expandKey_ok (key : State) (ek0 : Vector (BitVec 8) 176) :
    Ok (expandKey key ek0) (fun ek => ∀ t, t < 176 → ek[t]! = rkByte key t) := by
  unfold expandKey
  refine Ok.bind (P := fun ek => ∀ t, t < 16 → ek[t]! = rkByte key t) ?_ ?_
  · refine Ok.forUp (fun i (ek : Vector (BitVec 8) 176) => ∀ t, t < 4 * i → ek[t]! = rkByte key t)
      (by omega) (by omega) ?_ (fun ek h => h)
    intro i ek _ hi h
    obtain ⟨a1, a2, a3, a4, h1, h2, h3, h4, hout, e0, e1, e2, e3⟩ := wr4_get ek (i := 4 * i) (by omega) key[4 * i]!
      key[4 * i + 1]! key[4 * i + 2]! key[4 * i + 3]!
    rw [rd_get key (show 4 * i < 16 by omega), C_pure_bind, h1, C_pure_bind,
      rd_get key (show 4 * i + 1 < 16 by omega), C_pure_bind, h2, C_pure_bind,
      rd_get key (show 4 * i + 2 < 16 by omega), C_pure_bind, h3, C_pure_bind,
      rd_get key (show 4 * i + 3 < 16 by omega), C_pure_bind, h4, Ok.ok_iff]
    intro t ht
    have hk : ∀ t, t < 16 → rkByte key t = key[t]! := by
      intro t ht
      unfold rkByte
      rw [show t / 16 = 0 by omega, show t % 16 = t by omega]
      rfl
    by_cases c : t < 4 * i
    · rw [(hout t (by omega) (by omega)).2.2.2]
      exact h t c
    · rw [hk t (by omega)]
      obtain rfl | rfl | rfl | rfl : t = 4 * i ∨ t = 4 * i + 1 ∨ t = 4 * i + 2 ∨ t = 4 * i + 3 := by omega
      · exact e0
      · exact e1
      · exact e2
      · exact e3
  · intro ek hek
    refine Ok.forUp (fun i (ek : Vector (BitVec 8) 176) => ∀ t, t < 4 * i → ek[t]! = rkByte key t)
      (by omega) (fun t ht => hek t (by omega)) ?_ (fun ek h t ht => h t (by omega))
    intro i ek h4 hi h
    obtain ⟨r, j, hj, rfl⟩ : ∃ r j, j < 4 ∧ i = 4 * (r + 1) + j := ⟨i / 4 - 1, i % 4, by omega, by omega⟩
    have recu := fun b hb => rkByte_rec key r j b hj hb
    have p4 : 4 * (r + 1) + j - 4 = 4 * r + j := by omega
    rw [rd_get ek (by omega), C_pure_bind, rd_get ek (by omega), C_pure_bind, rd_get ek (by omega), C_pure_bind,
      rd_get ek (by omega), C_pure_bind, p4]
    have key' : ∀ t0 t1 t2 t3 : BitVec 8,
        rkByte key (4 * (4 * (r + 1) + j)) = rkByte key (4 * (4 * r + j)) ^^^ t0 →
        rkByte key (4 * (4 * (r + 1) + j) + 1) = rkByte key (4 * (4 * r + j) + 1) ^^^ t1 →
        rkByte key (4 * (4 * (r + 1) + j) + 2) = rkByte key (4 * (4 * r + j) + 2) ^^^ t2 →
        rkByte key (4 * (4 * (r + 1) + j) + 3) = rkByte key (4 * (4 * r + j) + 3) ^^^ t3 →
        Ok (do
          let ek ← wr ek (4 * (4 * (r + 1) + j)) ((← rd ek (4 * (4 * r + j))) ^^^ t0)
          let ek ← wr ek (4 * (4 * (r + 1) + j) + 1) ((← rd ek (4 * (4 * r + j) + 1)) ^^^ t1)
          let ek ← wr ek (4 * (4 * (r + 1) + j) + 2) ((← rd ek (4 * (4 * r + j) + 2)) ^^^ t2)
          wr ek (4 * (4 * (r + 1) + j) + 3) ((← rd ek (4 * (4 * r + j) + 3)) ^^^ t3))
          (fun ek => ∀ t, t < 4 * (4 * (r + 1) + j + 1) → ek[t]! = rkByte key t) := by
      intro t0 t1 t2 t3 c0 c1 c2 c3
      rw [← h (4 * (4 * r + j)) (by omega)] at c0
      rw [← h (4 * (4 * r + j) + 1) (by omega)] at c1
      rw [← h (4 * (4 * r + j) + 2) (by omega)] at c2
      rw [← h (4 * (4 * r + j) + 3) (by omega)] at c3
      obtain ⟨a1, a2, a3, a4, h1, h2, h3, h4, hout, e0, e1, e2, e3⟩ := wr4_get ek (i := 4 * (4 * (r + 1) + j)) (by omega)
        (ek[4 * (4 * r + j)]! ^^^ t0) (ek[4 * (4 * r + j) + 1]! ^^^ t1) (ek[4 * (4 * r + j) + 2]! ^^^ t2)
        (ek[4 * (4 * r + j) + 3]! ^^^ t3)
      rw [rd_get ek (by omega), C_pure_bind, h1, C_pure_bind]
      rw [rd_get a1 (by omega), C_pure_bind, (hout (4 * (4 * r + j) + 1) (by omega) (by omega)).1, h2, C_pure_bind]
      rw [rd_get a2 (by omega), C_pure_bind, (hout (4 * (4 * r + j) + 2) (by omega) (by omega)).2.1, h3, C_pure_bind]
      rw [rd_get a3 (by omega), C_pure_bind, (hout (4 * (4 * r + j) + 3) (by omega) (by omega)).2.2.1, h4, Ok.ok_iff]
      intro t ht
      by_cases c : t < 4 * (4 * (r + 1) + j)
      · rw [(hout t (by omega) (by omega)).2.2.2]
        exact h t c
      · obtain rfl | rfl | rfl | rfl : t = 4 * (4 * (r + 1) + j) ∨ t = 4 * (4 * (r + 1) + j) + 1 ∨
            t = 4 * (4 * (r + 1) + j) + 2 ∨ t = 4 * (4 * (r + 1) + j) + 3 := by omega
        · rw [e0, c0]
        · rw [e1, c1]
        · rw [e2, c2]
        · rw [e3, c3]
    by_cases c : (4 * (r + 1) + j) % 4 = 0
    · obtain rfl : j = 0 := by omega
      rw [if_pos c]
      rw [rd_SBox, C_pure_bind, show (4 * (r + 1) + 0) / 4 = r + 1 by omega, rCon_eq r (by omega), C_pure_bind, rd_SBox,
        C_pure_bind, rd_SBox, C_pure_bind, rd_SBox, C_pure_bind]
      simp only [C_pure_eq, C_pure_bind, if_pos] at recu ⊢
      have hm : ∀ b, b < 4 → ek[4 * (4 * (r + 1) + 0 - 1) + b]! = rkByte key (4 * (4 * r + 3) + b) := by
        intro b hb
        rw [h _ (by omega)]
        congr 1
      rw [show ek[4 * (4 * (r + 1) + 0 - 1)]! = _ from hm 0 (by omega), hm 1 (by omega), hm 2 (by omega), hm 3 (by omega)]
      apply key'
      · simpa using recu 0 (by omega)
      · simpa using recu 1 (by omega)
      · simpa using recu 2 (by omega)
      · simpa using recu 3 (by omega)
    · rw [if_neg c]
      have j0 : j ≠ 0 := by omega
      simp only [if_neg j0] at recu
      simp only [C_pure_eq, C_pure_bind]
      rw [h _ (by omega), h _ (by omega), h _ (by omega), h _ (by omega)]
      exact key' _ _ _ _ (recu 0 (by omega)) (recu 1 (by omega)) (recu 2 (by omega)) (recu 3 (by omega))

/-! ## The cipher -/

theorem sb_get (s : State) {i : Nat} (hi : i < 16) : (AES.subBytes s)[i]! = AES.S s[i]! := by
  unfold AES.subBytes
  rw [ofFn_get _ hi, getElem!_pos s i hi]
  rfl

theorem ark_get (s k : State) {i : Nat} (hi : i < 16) : (AES.addRoundKey s k)[i]! = s[i]! ^^^ k[i]! := by
  unfold AES.addRoundKey
  rw [ofFn_get _ hi, getElem!_pos s i hi, getElem!_pos k i hi]
  rfl

theorem sb_sr (s : State) : AES.subBytes (AES.shiftRows s) = AES.shiftRows (AES.subBytes s) := by
  apply vec_ext
  intro x hx
  rw [sb_get _ hx, sr_get _ hx, sr_get _ hx, sb_get _ (by omega)]

theorem ark_sr (s k : State) : AES.addRoundKey (AES.shiftRows s) (AES.shiftRows k) = AES.shiftRows (AES.addRoundKey s k) := by
  apply vec_ext
  intro x hx
  rw [ark_get _ _ hx, sr_get _ hx, sr_get _ hx, sr_get _ hx, ark_get _ _ (by omega)]

/-- The state before the key addition of round `n`. -/
def pre (k : Nat → State) (s : State) : Nat → State
  | 0 => s
  | n + 1 => AES.mixColumns (AES.subBytes (AES.addRoundKey (AES.shiftRows (pre k s n)) (AES.shiftRows (k n))))

theorem ark_pre (k : Nat → State) (s : State) (n : Nat) : AES.addRoundKey (pre k s n) (k n) = AES.rounds k s n := by
  induction n with
  | zero => rfl
  | succ n ih =>
    show AES.addRoundKey (AES.mixColumns (AES.subBytes (AES.addRoundKey (AES.shiftRows (pre k s n)) (AES.shiftRows (k n)))))
      (k (n + 1)) = AES.addRoundKey (AES.mixColumns (AES.shiftRows (AES.subBytes (AES.rounds k s n)))) (k (n + 1))
    rw [ark_sr, ih, sb_sr]

theorem cipher_pre (k : Nat → State) (s : State) :
    AES.addRoundKey (AES.subBytes (AES.addRoundKey (AES.shiftRows (pre k s 9)) (AES.shiftRows (k 9)))) (k 10) =
      AES.cipher k s := by
  unfold AES.cipher
  rw [ark_sr, ark_pre, sb_sr]

/-- An expanded key holds the given round keys. -/
def KeyOk (k : Nat → State) (ek : Vector (BitVec 8) 176) : Prop := ∀ r, r < 11 → blk ek (16 * r) = k r

/-- The first `n` round keys have been permuted. -/
def KeyOkN (k : Nat → State) (n : Nat) (ek : Vector (BitVec 8) 176) : Prop :=
  ∀ r, r < 11 → blk ek (16 * r) = if r < n then AES.shiftRows (k r) else k r

theorem expandKey_keyOk (key : State) (ek0 : Vector (BitVec 8) 176) :
    Ok (expandKey key ek0) (fun ek => KeyOk (AES.roundKey key) ek) := by
  refine (expandKey_ok key ek0).mono ?_
  intro ek h r hr
  apply vec_ext
  intro x hx
  rw [blk_get _ _ hx, h _ (by omega)]
  unfold rkByte
  rw [show (16 * r + x) / 16 = r by omega, show (16 * r + x) % 16 = x by omega]

theorem keyOkN_zero {k : Nat → State} {ek : Vector (BitVec 8) 176} (h : KeyOk k ek) : KeyOkN k 0 ek := by
  intro r hr
  rw [if_neg (by omega)]
  exact h r hr

theorem shiftKey_ok (env : Env) {k : Nat → State} {n : Nat} (hn : n < 10) {ek : Vector (BitVec 8) 176}
    (h : KeyOkN k n ek) : Ok (shiftRows env ek (16 * n)) (fun ek => KeyOkN k (n + 1) ek) := by
  refine (shiftRows_ok env ek (16 * n) (by omega)).mono ?_
  intro m hm r hr
  have hb := h r hr
  apply vec_ext
  intro x hx
  rw [blk_get _ _ hx, hm _ (by omega)]
  by_cases c : r = n
  · subst c
    rw [if_pos (by omega), if_pos (by omega), show 16 * r + x - 16 * r = x by omega, hb, if_neg (by omega)]
  · rw [if_neg (by omega), ← blk_get _ _ hx, hb]
    by_cases c2 : r < n
    · rw [if_pos c2, if_pos (by omega)]
    · rw [if_neg c2, if_neg (by omega)]

theorem aes_128_encrypt_eq (env : Env) (input output : State) :
    aes_128_encrypt env input output =
      .ok (AES.encrypt (Vector.replicate 16 0) input, AES.encrypt (Vector.replicate 16 0) input) := by
  rw [← Ok.eq]
  unfold aes_128_encrypt
  refine Ok.bind (expandKey_keyOk (Vector.replicate 16 0) (env.junkArr 8 176)) ?_
  intro ek hek
  unfold AES.encrypt
  generalize AES.roundKey (Vector.replicate 16 0) = k at hek ⊢
  refine Ok.bind (P := fun p => p.1 = pre k input 9 ∧ KeyOkN k 9 p.2) ?_ ?_
  · refine Ok.forUp (fun n (p : State × Vector (BitVec 8) 176) => p.1 = pre k input n ∧ KeyOkN k n p.2) (by omega)
      ⟨rfl, keyOkN_zero hek⟩ ?_ (fun p h => h)
    rintro n ⟨s, ek⟩ - hn ⟨rfl, hk⟩
    simp only
    rw [shiftRows_eq, C_pure_bind]
    refine Ok.bind (shiftKey_ok env (by omega) hk) ?_
    intro ek' hk'
    rw [addRoundKey_eq _ _ _ (by omega), C_pure_bind, subBytes_eq, C_pure_bind, mixColumns_eq, C_pure_bind, Ok.pure_iff]
    refine ⟨?_, hk'⟩
    rw [hk' n (by omega), if_pos (by omega)]
    rfl
  · rintro ⟨s, ek⟩ ⟨rfl, hk⟩
    simp only
    rw [shiftRows_eq, C_pure_bind]
    refine Ok.bind (shiftKey_ok env (n := 9) (by omega) hk) ?_
    intro ek' hk'
    rw [addRoundKey_eq _ _ _ (by omega), C_pure_bind, subBytes_eq, C_pure_bind, addRoundKey_eq _ _ _ (by omega),
      C_pure_bind, copy16, C_pure_bind, Ok.pure_iff]
    rw [show blk ek' 144 = _ from hk' 9 (by omega), show blk ek' 160 = _ from hk' 10 (by omega), if_pos (by omega),
      if_neg (by omega), cipher_pre]

end WB.aes
