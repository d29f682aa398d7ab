import Verif.Proof.Trans

/-!
# `MattransM*` for every size (helper lemmas)

Written by `tools/gen_mul.py`.
-/
namespace WB
open Matrix

theorem shl_pos (j : Nat) : 0 < 1 <<< j := by
  rw [Nat.one_shiftLeft]; exact Nat.two_pow_pos j

theorem shl_succ (j : Nat) : 1 <<< j * 2 = 1 <<< (j + 1) := by
  rw [Nat.one_shiftLeft, Nat.one_shiftLeft, Nat.pow_succ]

theorem transBody {w n : Nat} (M : Vector (BitVec w) n) {l k J j : Nat} (hk : 0 < k)
    (hl : l + k < n) {mask : Vector (BitVec w) J} {m : BitVec w} (hm : rd mask j = .ok m) :
    Ok (do
      let temp := ((← rd M l) &&& ~~~(← rd mask j)) ^^^ (((← rd M (l + k)) &&& ~~~(← rd mask j)) >>> k)
      let M ← wr M (l + k) (((← rd M (l + k)) &&& (← rd mask j)) ^^^ (((← rd M l) &&& (← rd mask j)) <<< k))
      wr M l temp) (fun M' => M'[l] = newLo m k M[l] M[l + k] ∧ M'[l + k] = newHi m k M[l] M[l + k] ∧
        ∀ r (h : r < n), r ≠ l → r ≠ l + k → M'[r] = M[r]) := by
  rw [hm, rd_ok M l (by omega), rd_ok M (l + k) hl]
  simp only [C_pure_bind]
  rw [wr_ok _ _ _ hl, C_pure_bind, wr_ok _ _ _ (by omega : l < n), Ok.ok_iff]
  refine ⟨by simp; rfl, ?_, fun r h h1 h2 => ?_⟩
  · rw [Vector.getElem_set_ne _ _ (by omega), Vector.getElem_set_self]; rfl
  · rw [Vector.getElem_set_ne _ _ (by omega), Vector.getElem_set_ne _ _ (by omega)]

theorem transBody4 (M : M4) {l k J j : Nat} (hk : 0 < k)
    (hl : l + k < 4) {mask : Vector (BitVec 8) J} {m : BitVec 8} (hm : rd mask j = .ok m) :
    Ok (do
      let temp := (((← rd M l) &&& ~~~(← rd mask j)) ^^^ (((← rd M (l + k)) &&& ~~~(← rd mask j)) >>> k)) &&& 0x0f
      let M ← wr M (l + k) ((((← rd M (l + k)) &&& (← rd mask j)) ^^^ (((← rd M l) &&& (← rd mask j)) <<< k)) &&& 0x0f)
      wr M l temp) (fun M' => M'[l] = newLo m k M[l] M[l + k] &&& 0x0f ∧
        M'[l + k] = newHi m k M[l] M[l + k] &&& 0x0f ∧
        ∀ r (h : r < 4), r ≠ l → r ≠ l + k → M'[r] = M[r]) := by
  rw [hm, rd_ok M l (by omega), rd_ok M (l + k) hl]
  simp only [C_pure_bind]
  rw [wr_ok _ _ _ hl, C_pure_bind, wr_ok _ _ _ (by omega : l < 4), Ok.ok_iff]
  refine ⟨by simp; rfl, ?_, fun r h h1 h2 => ?_⟩
  · rw [Vector.getElem_set_ne _ _ (by omega), Vector.getElem_set_self]; rfl
  · rw [Vector.getElem_set_ne _ _ (by omega), Vector.getElem_set_ne _ _ (by omega)]

theorem bitS4_mask (x : BitVec 8) {c : Nat} (h : c < 4) : bitS 4 (x &&& 0x0f) c = bitS 4 x c := by
  unfold bitS
  rw [BitVec.getLsbD_and]
  have : (0x0f : BitVec 8).getLsbD (4 - 1 - c) = true := by
    obtain rfl | rfl | rfl | rfl : c = 0 ∨ c = 1 ∨ c = 2 ∨ c = 3 := by omega
    all_goals decide
  rw [this, Bool.and_true]

theorem high4_mask (x : BitVec 8) (p : Nat) (h : 4 ≤ p) : (x &&& 0x0f).getLsbD p = false := by
  rw [BitVec.getLsbD_and]
  have : (0x0f : BitVec 8).getLsbD p = false := by
    by_cases hp : p < 8
    · obtain rfl | rfl | rfl | rfl : p = 4 ∨ p = 5 ∨ p = 6 ∨ p = 7 := by omega
      all_goals decide
    · exact BitVec.getLsbD_of_ge _ _ (by omega)
  rw [this, Bool.and_false]

/-! ## Multi-word rows -/

/-- The `q`-th word of row `r`. -/
def cell {l n : Nat} (M : Vector (Vector (BitVec 64) l) n) (r q : Nat) : BitVec 64 :=
  (M[r]?.getD (Vector.replicate l 0))[q]?.getD 0

theorem cell_eq {l n : Nat} (M : Vector (Vector (BitVec 64) l) n) {r q : Nat} (hr : r < n)
    (hq : q < l) : cell M r q = M[r][q] := by simp [cell, hr, hq]

theorem bitsW_cell {l n : Nat} (M : Vector (Vector (BitVec 64) l) n) {r c : Nat} (hr : r < n)
    (hc : c / 64 < l) : bitsW M r c = (cell M r (c / 64)).getLsbD (63 - c % 64) := by
  rw [bitsW_eq _ hr, bitW_eq _ _ hc, cell_eq _ hr hc]

theorem cell_set2 {l n : Nat} (M : Vector (Vector (BitVec 64) l) n) {a p : Nat} (ha : a < n)
    (hp : p < l) (x : BitVec 64) {r q : Nat} (hr : r < n) (hq : q < l) :
    cell (M.set a (M[a].set p x)) r q = if r = a ∧ q = p then x else cell M r q := by
  rw [cell_eq _ hr hq, cell_eq _ hr hq]
  by_cases h : r = a
  · subst h
    rw [Vector.getElem_set_self]
    by_cases h' : q = p
    · subst h'; simp
    · rw [Vector.getElem_set_ne _ _ (Ne.symm h')]; simp [h']
  · rw [Vector.getElem_set_ne _ _ (Ne.symm h)]; simp [h]

theorem swapCell {β : Type} {l n : Nat} (M : Vector (Vector (BitVec 64) l) n) {a p b q : Nat}
    (ha : a < n) (hp : p < l) (hb : b < n) (hq : q < l) (hne : a ≠ b)
    (rest : Vector (Vector (BitVec 64) l) n → C β) (Q : β → Prop)
    (h : ∀ M', (∀ r x, r < n → x < l → cell M' r x =
      if r = a ∧ x = p then cell M b q else if r = b ∧ x = q then cell M a p else cell M r x) →
      Ok (rest M') Q) :
    Ok (do
      let temp ← rd2 M a p
      let M ← wr2 M a p (← rd2 M b q)
      let M ← wr2 M b q temp
      rest M) Q := by
  rw [rd2_ok _ _ _ ha hp, rd2_ok _ _ _ hb hq]
  simp only [C_pure_bind]
  rw [wr2_ok _ _ _ _ ha hp, C_pure_bind, wr2_ok _ _ _ _ hb hq, C_pure_bind]
  apply h
  intro r x hr hx
  rw [cell_set2 _ hb hq _ hr hx, cell_set2 _ ha hp _ hr hx, cell_eq M ha hp, cell_eq M hb hq]
  by_cases h1 : r = b ∧ x = q
  · rw [if_pos h1, if_neg (by omega), if_pos h1]
  · rw [if_neg h1, if_neg h1]

theorem swapCellEnd {l n : Nat} (M : Vector (Vector (BitVec 64) l) n) {a p b q : Nat}
    (ha : a < n) (hp : p < l) (hb : b < n) (hq : q < l) (hne : a ≠ b)
    (Q : Vector (Vector (BitVec 64) l) n → Prop)
    (h : ∀ M', (∀ r x, r < n → x < l → cell M' r x =
      if r = a ∧ x = p then cell M b q else if r = b ∧ x = q then cell M a p else cell M r x) →
      Q M') :
    Ok (do
      let temp ← rd2 M a p
      let M ← wr2 M a p (← rd2 M b q)
      wr2 M b q temp) Q := by
  have := swapCell M ha hp hb hq hne pure Q (fun M' h' => (Ok.pure_iff _ _).2 (h M' h'))
  simpa only [bind_pure] using this

/-- A loop that permutes the words of the rows congruent to the loop counter. -/
theorem blockLoop {l n B : Nat} (σ : Nat → Nat → Nat × Nat)
    (hσ : ∀ r q, r < n → q < l → (σ r q).1 < n ∧ (σ r q).2 < l ∧ (σ r q).1 % B = r % B)
    (body : Nat → Vector (Vector (BitVec 64) l) n → C (Vector (Vector (BitVec 64) l) n))
    (hB : ∀ r, r < n → r % B < B)
    (hb : ∀ i M, i < B → Ok (body i M) (fun M' => ∀ r q, r < n → q < l →
      cell M' r q = if r % B = i then cell M (σ r q).1 (σ r q).2 else cell M r q))
    (M : Vector (Vector (BitVec 64) l) n) :
    Ok (forUp 0 B M body) (fun M' => ∀ r q, r < n → q < l →
      cell M' r q = cell M (σ r q).1 (σ r q).2) := by
  refine Ok.forUp (fun i M' => ∀ r q, r < n → q < l →
    cell M' r q = if r % B < i then cell M (σ r q).1 (σ r q).2 else cell M r q)
    (Nat.zero_le _) ?_ ?_ ?_
  · intro r q _ _; simp
  · intro i M' _ hi h
    refine (hb i M' hi).mono ?_
    intro M'' h' r q hr hq
    obtain ⟨s1, s2, s3⟩ := hσ r q hr hq
    rw [h' r q hr hq]
    by_cases e : r % B = i
    · rw [if_pos e, if_pos (by omega), h _ _ s1 s2, if_neg (by omega)]
    · rw [if_neg e, h r q hr hq]
      by_cases e' : r % B < i
      · rw [if_pos e', if_pos (by omega)]
      · rw [if_neg e', if_neg (by omega)]
  · intro M' h r q hr hq
    rw [h r q hr hq, if_pos (hB r hr)]

/-- Exchange of one of the high index bits (`k = 64·t`). -/
def sig (t r q : Nat) : Nat × Nat :=
  if r / (64 * t) % 2 = q / t % 2 then (r, q)
  else if r / (64 * t) % 2 = 0 then (r + 64 * t, q - t) else (r - 64 * t, q + t)

theorem stageCell {l n t : Nat} (hl : n = 64 * l) (ht : 0 < t) {a : Nat → Nat → Bool}
    {A A' : Vector (Vector (BitVec 64) l) n}
    (hN : ∀ r, r < n → r / (64 * t) % 2 = 0 → r + 64 * t < n)
    (h : Exch n (64 * t) a (bitsW A))
    (hc : ∀ r q, r < n → q < l → cell A' r q = cell A (sig t r q).1 (sig t r q).2) :
    Exch n (64 * t * 2) a (bitsW A') := by
  have hd : ∀ c, c / (64 * t) = c / 64 / t := fun c => (Nat.div_div_eq_div_mul c 64 t).symm
  have hd1 : ∀ c, (c + 64 * t) / 64 = c / 64 + t := by intro c; omega
  have hd2 : ∀ c, (c + 64 * t) % 64 = c % 64 := by intro c; omega
  refine h.step (by omega) hN ?_ ?_
  · intro r c hr hc' e
    rw [bitsW_cell _ hr (by omega), bitsW_cell _ hr (by omega), hc r _ hr (by omega)]
    unfold sig
    rw [if_pos (by rw [← hd c]; exact e)]
  · intro r c hr hc' h0 h1
    have e1 : c / 64 / t % 2 = 0 := by rw [← hd]; exact h1
    have e2 : (c / 64 + t) / t % 2 = 1 := by rw [Nat.add_div_right _ ht]; omega
    have e3 : (r + 64 * t) / (64 * t) % 2 = 1 := by rw [Nat.add_div_right _ (by omega)]; omega
    rw [bitsW_cell _ (by omega) (by omega), bitsW_cell _ hr (by omega), bitsW_cell _ hr (by omega),
      bitsW_cell _ (by omega) (by omega), hc r _ (by omega) (by omega), hc _ _ hr (by omega)]
    simp only [hd1, hd2]
    unfold sig
    rw [if_neg (by omega), if_pos h0, if_neg (by omega), if_neg (by omega)]
    simp

theorem transWord {β : Type} {l n : Nat} (M : Vector (Vector (BitVec 64) l) n) {a k q J j : Nat}
    (hk : 0 < k) (ha : a + k < n) (hq : q < l) {mask : Vector (BitVec 64) J} {m : BitVec 64}
    (hm : rd mask j = .ok m)
    (rest : Vector (Vector (BitVec 64) l) n → C β) (Q : β → Prop)
    (h : ∀ M', (∀ r x, r < n → x < l → cell M' r x =
      if x = q then
        (if r = a then newLo m k (cell M a q) (cell M (a + k) q)
        else if r = a + k then newHi m k (cell M a q) (cell M (a + k) q) else cell M r x)
      else cell M r x) → Ok (rest M') Q) :
    Ok (do
      let temp := ((← rd2 M a q) &&& ~~~(← rd mask j)) ^^^ (((← rd2 M (a + k) q) &&& ~~~(← rd mask j)) >>> k)
      let M ← wr2 M (a + k) q (((← rd2 M (a + k) q) &&& (← rd mask j)) ^^^ (((← rd2 M a q) &&& (← rd mask j)) <<< k))
      let M ← wr2 M a q temp
      rest M) Q := by
  rw [hm, rd2_ok _ _ _ ha hq, rd2_ok _ _ _ (by omega : a < n) hq]
  simp only [C_pure_bind]
  rw [wr2_ok _ _ _ _ ha hq, C_pure_bind, wr2_ok _ _ _ _ (by omega : a < n) hq, C_pure_bind]
  apply h
  intro r x hr hx
  rw [cell_set2 _ (by omega) hq _ hr hx, cell_set2 _ ha hq _ hr hx, cell_eq M ha hq,
    cell_eq M (by omega : a < n) hq]
  by_cases hxq : x = q
  · subst hxq
    simp only [and_true, if_true]
    rfl
  · simp [hxq]

theorem transWordEnd {l n : Nat} (M : Vector (Vector (BitVec 64) l) n) {a k q J j : Nat}
    (hk : 0 < k) (ha : a + k < n) (hq : q < l) {mask : Vector (BitVec 64) J} {m : BitVec 64}
    (hm : rd mask j = .ok m)
    (Q : Vector (Vector (BitVec 64) l) n → Prop)
    (h : ∀ M', (∀ r x, r < n → x < l → cell M' r x =
      if x = q then
        (if r = a then newLo m k (cell M a q) (cell M (a + k) q)
        else if r = a + k then newHi m k (cell M a q) (cell M (a + k) q) else cell M r x)
      else cell M r x) → Q M') :
    Ok (do
      let temp := ((← rd2 M a q) &&& ~~~(← rd mask j)) ^^^ (((← rd2 M (a + k) q) &&& ~~~(← rd mask j)) >>> k)
      let M ← wr2 M (a + k) q (((← rd2 M (a + k) q) &&& (← rd mask j)) ^^^ (((← rd2 M a q) &&& (← rd mask j)) <<< k))
      wr2 M a q temp) Q := by
  have := transWord M hk ha hq hm pure Q (fun M' h' => (Ok.pure_iff _ _).2 (h M' h'))
  simpa only [bind_pure] using this

theorem masks64 : ∀ j, j < 6 → MaskOK 64 (1 <<< j)
    ((#v[0x5555555555555555, 0x3333333333333333, 0x0f0f0f0f0f0f0f0f, 0x00ff00ff00ff00ff,
      0x0000ffff0000ffff, 0x00000000ffffffff] : Vector (BitVec 64) 6)[j]?.getD 0) := by
  decide +kernel

theorem maskGet {w J : Nat} {v : Vector (BitVec w) J} {j : Nat} (h : j < J) :
    rd v j = .ok (v[j]?.getD 0) := by
  rw [rd_ok _ _ h]; simp [h]

theorem masks4 : ∀ j, j < 2 → MaskOK 4 (1 <<< j) ((#v[0x5, 0x3] : Vector (BitVec 8) 2)[j]?.getD 0) := by
  decide +kernel

theorem pairs4 : ∀ j, j < 2 → PairsOK 4 (1 <<< j) ∧ 4 % (1 <<< j * 2) = 0 := by
  decide +kernel

theorem MattransM4_ok (env : Env) (A T : M4) (hA : CleanM4 A) :
    Ok (MattransM4 env A T) (fun B => mat4 B = (mat4 A)ᵀ ∧ CleanM4 B) := by
  unfold MattransM4
  dsimp only
  rw [wr_ok _ 0 _ (by omega), C_pure_bind, wr_ok _ 1 _ (by omega), C_pure_bind]
  have hmask : (((Env.junkArr env 8 2).set 0 0x5).set 1 0x3) = (#v[0x5, 0x3] : Vector (BitVec 8) 2) := by
    ext j hj
    obtain rfl | rfl : j = 0 ∨ j = 1 := by omega
    all_goals simp
  rw [hmask]
  clear hmask
  refine Ok.bind (P := fun B => mat4 B = (mat4 A)ᵀ ∧ CleanM4 B) ?_ ?_
  · refine Ok.forUp (fun j A' => (Exch 4 (1 <<< j) (bitsS 4 A) (bitsS 4 A') ∧ CleanM4 A')) (Nat.zero_le _)
      ⟨Exch.one _ _, hA⟩ ?_ ?_
    · rintro j A' - hj ⟨hI, hcl⟩
      obtain ⟨hP, hn⟩ := pairs4 j hj
      have hm := masks4 j hj
      have hr := maskGet (v := (#v[0x5, 0x3] : Vector (BitVec 8) 2)) hj
      generalize ((#v[0x5, 0x3] : Vector (BitVec 8) 2)[j]?.getD 0) = m at hm hr
      refine (stage (n := 4) hP (shl_pos j) (fun x y => newLo m (1 <<< j) x y &&& 0x0f) (fun x y => newHi m (1 <<< j) x y &&& 0x0f) _ ?_ A').mono ?_
      · intro i hi M h
        exact transBody4 M (shl_pos j) h hr
      · intro A'' h
        have hcl' : ∀ r (h : r < 4), ∀ p, 4 ≤ p → A''[r].getLsbD p = false := by
          intro r hr p hp
          rcases Nat.mod_two_eq_zero_or_one (r / (1 <<< j)) with h0 | h0
          · rw [(h r (hm.2 r hr h0) h0).1]; exact high4_mask _ p hp
          · have hkr : 1 <<< j ≤ r := by
              by_contra hlt
              rw [Nat.div_eq_of_lt (by omega)] at h0; omega
            obtain ⟨d, rfl⟩ : ∃ d, r = d + 1 <<< j := ⟨r - 1 <<< j, by omega⟩
            have hd : d / (1 <<< j) % 2 = 0 := by
              rw [Nat.add_div_right _ (shl_pos j)] at h0; omega
            rw [(h d hr hd).2]; exact high4_mask _ p hp
        refine ⟨?_, fun r => clean4_of_bits (hcl' r.val r.2)⟩
        rw [← shl_succ]
        exact stageS (shl_pos j) (by omega) hm hn (fun x y => newLo m (1 <<< j) x y &&& 0x0f) (fun x y => newHi m (1 <<< j) x y &&& 0x0f) (fun x y c hc => bitS4_mask _ hc) (fun x y c hc => bitS4_mask _ hc)
          (fun r h p hp => (hcl ⟨r, h⟩).bits4 p hp) hI h
    · rintro B ⟨hB, hcl⟩
      exact ⟨transS_of_exch hB, hcl⟩
  · intro B hB
    rw [copyM4_eq, Ok.ok_iff]
    exact hB

theorem masks8 : ∀ j, j < 3 → MaskOK 8 (1 <<< j) ((#v[0x55, 0x33, 0x0f] : Vector (BitVec 8) 3)[j]?.getD 0) := by
  decide +kernel

theorem pairs8 : ∀ j, j < 3 → PairsOK 8 (1 <<< j) ∧ 8 % (1 <<< j * 2) = 0 := by
  decide +kernel

theorem MattransM8_ok (env : Env) (A T : M8) :
    Ok (MattransM8 env A T) (fun B => mat8 B = (mat8 A)ᵀ) := by
  unfold MattransM8
  dsimp only
  rw [wr_ok _ 0 _ (by omega), C_pure_bind, wr_ok _ 1 _ (by omega), C_pure_bind, wr_ok _ 2 _ (by omega), C_pure_bind]
  have hmask : ((((Env.junkArr env 8 3).set 0 0x55).set 1 0x33).set 2 0x0f) = (#v[0x55, 0x33, 0x0f] : Vector (BitVec 8) 3) := by
    ext j hj
    obtain rfl | rfl | rfl : j = 0 ∨ j = 1 ∨ j = 2 := by omega
    all_goals simp
  rw [hmask]
  clear hmask
  refine Ok.bind (P := fun B => mat8 B = (mat8 A)ᵀ) ?_ ?_
  · refine Ok.forUp (fun j A' => Exch 8 (1 <<< j) (bitsS 8 A) (bitsS 8 A')) (Nat.zero_le _)
      (Exch.one _ _) ?_ ?_
    · intro j A' _ hj hI
      obtain ⟨hP, hn⟩ := pairs8 j hj
      have hm := masks8 j hj
      have hr := maskGet (v := (#v[0x55, 0x33, 0x0f] : Vector (BitVec 8) 3)) hj
      generalize ((#v[0x55, 0x33, 0x0f] : Vector (BitVec 8) 3)[j]?.getD 0) = m at hm hr
      refine (stage (n := 8) hP (shl_pos j) (newLo m (1 <<< j)) (newHi m (1 <<< j)) _ ?_ A').mono ?_
      · intro i hi M h
        exact transBody M (shl_pos j) h hr
      · intro A'' h
        rw [← shl_succ]
        exact stageS (shl_pos j) (by omega) hm hn (newLo m (1 <<< j)) (newHi m (1 <<< j)) (fun _ _ _ _ => rfl) (fun _ _ _ _ => rfl)
          (fun r h p hp => BitVec.getLsbD_of_ge _ _ hp) hI h
    · intro B hB
      exact transS_of_exch hB
  · intro B hB
    rw [copyM8_eq, Ok.ok_iff]
    exact hB

theorem masks16 : ∀ j, j < 4 → MaskOK 16 (1 <<< j) ((#v[0x5555, 0x3333, 0x0f0f, 0x00ff] : Vector (BitVec 16) 4)[j]?.getD 0) := by
  decide +kernel

theorem pairs16 : ∀ j, j < 4 → PairsOK 16 (1 <<< j) ∧ 16 % (1 <<< j * 2) = 0 := by
  decide +kernel

theorem MattransM16_ok (env : Env) (A T : M16) :
    Ok (MattransM16 env A T) (fun B => mat16 B = (mat16 A)ᵀ) := by
  unfold MattransM16
  dsimp only
  rw [wr_ok _ 0 _ (by omega), C_pure_bind, wr_ok _ 1 _ (by omega), C_pure_bind, wr_ok _ 2 _ (by omega), C_pure_bind, wr_ok _ 3 _ (by omega), C_pure_bind]
  have hmask : (((((Env.junkArr env 16 4).set 0 0x5555).set 1 0x3333).set 2 0x0f0f).set 3 0x00ff) = (#v[0x5555, 0x3333, 0x0f0f, 0x00ff] : Vector (BitVec 16) 4) := by
    ext j hj
    obtain rfl | rfl | rfl | rfl : j = 0 ∨ j = 1 ∨ j = 2 ∨ j = 3 := by omega
    all_goals simp
  rw [hmask]
  clear hmask
  refine Ok.bind (P := fun B => mat16 B = (mat16 A)ᵀ) ?_ ?_
  · refine Ok.forUp (fun j A' => Exch 16 (1 <<< j) (bitsS 16 A) (bitsS 16 A')) (Nat.zero_le _)
      (Exch.one _ _) ?_ ?_
    · intro j A' _ hj hI
      obtain ⟨hP, hn⟩ := pairs16 j hj
      have hm := masks16 j hj
      have hr := maskGet (v := (#v[0x5555, 0x3333, 0x0f0f, 0x00ff] : Vector (BitVec 16) 4)) hj
      generalize ((#v[0x5555, 0x3333, 0x0f0f, 0x00ff] : Vector (BitVec 16) 4)[j]?.getD 0) = m at hm hr
      refine (stage (n := 16) hP (shl_pos j) (newLo m (1 <<< j)) (newHi m (1 <<< j)) _ ?_ A').mono ?_
      · intro i hi M h
        exact transBody M (shl_pos j) h hr
      · intro A'' h
        rw [← shl_succ]
        exact stageS (shl_pos j) (by omega) hm hn (newLo m (1 <<< j)) (newHi m (1 <<< j)) (fun _ _ _ _ => rfl) (fun _ _ _ _ => rfl)
          (fun r h p hp => BitVec.getLsbD_of_ge _ _ hp) hI h
    · intro B hB
      exact transS_of_exch hB
  · intro B hB
    rw [copyM16_eq, Ok.ok_iff]
    exact hB

theorem masks32 : ∀ j, j < 5 → MaskOK 32 (1 <<< j) ((#v[0x55555555, 0x33333333, 0x0f0f0f0f, 0x00ff00ff, 0x0000ffff] : Vector (BitVec 32) 5)[j]?.getD 0) := by
  decide +kernel

theorem pairs32 : ∀ j, j < 5 → PairsOK 32 (1 <<< j) ∧ 32 % (1 <<< j * 2) = 0 := by
  decide +kernel

theorem MattransM32_ok (env : Env) (A T : M32) :
    Ok (MattransM32 env A T) (fun B => mat32 B = (mat32 A)ᵀ) := by
  unfold MattransM32
  dsimp only
  rw [wr_ok _ 0 _ (by omega), C_pure_bind, wr_ok _ 1 _ (by omega), C_pure_bind, wr_ok _ 2 _ (by omega), C_pure_bind, wr_ok _ 3 _ (by omega), C_pure_bind, wr_ok _ 4 _ (by omega), C_pure_bind]
  have hmask : ((((((Env.junkArr env 32 5).set 0 0x55555555).set 1 0x33333333).set 2 0x0f0f0f0f).set 3 0x00ff00ff).set 4 0x0000ffff) = (#v[0x55555555, 0x33333333, 0x0f0f0f0f, 0x00ff00ff, 0x0000ffff] : Vector (BitVec 32) 5) := by
    ext j hj
    obtain rfl | rfl | rfl | rfl | rfl : j = 0 ∨ j = 1 ∨ j = 2 ∨ j = 3 ∨ j = 4 := by omega
    all_goals simp
  rw [hmask]
  clear hmask
  refine Ok.bind (P := fun B => mat32 B = (mat32 A)ᵀ) ?_ ?_
  · refine Ok.forUp (fun j A' => Exch 32 (1 <<< j) (bitsS 32 A) (bitsS 32 A')) (Nat.zero_le _)
      (Exch.one _ _) ?_ ?_
    · intro j A' _ hj hI
      obtain ⟨hP, hn⟩ := pairs32 j hj
      have hm := masks32 j hj
      have hr := maskGet (v := (#v[0x55555555, 0x33333333, 0x0f0f0f0f, 0x00ff00ff, 0x0000ffff] : Vector (BitVec 32) 5)) hj
      generalize ((#v[0x55555555, 0x33333333, 0x0f0f0f0f, 0x00ff00ff, 0x0000ffff] : Vector (BitVec 32) 5)[j]?.getD 0) = m at hm hr
      refine (stage (n := 32) hP (shl_pos j) (newLo m (1 <<< j)) (newHi m (1 <<< j)) _ ?_ A').mono ?_
      · intro i hi M h
        exact transBody M (shl_pos j) h hr
      · intro A'' h
        rw [← shl_succ]
        exact stageS (shl_pos j) (by omega) hm hn (newLo m (1 <<< j)) (newHi m (1 <<< j)) (fun _ _ _ _ => rfl) (fun _ _ _ _ => rfl)
          (fun r h p hp => BitVec.getLsbD_of_ge _ _ hp) hI h
    · intro B hB
      exact transS_of_exch hB
  · intro B hB
    rw [copyM32_eq, Ok.ok_iff]
    exact hB

theorem pairs64 : ∀ j, j < 6 → PairsOK 64 (1 <<< j) ∧ 64 % (1 <<< j * 2) = 0 := by
  decide +kernel

theorem MattransM64_ok (env : Env) (A T : M64) :
    Ok (MattransM64 env A T) (fun B => mat64 B = (mat64 A)ᵀ) := by
  unfold MattransM64
  dsimp only
  rw [wr_ok _ 0 _ (by omega), C_pure_bind, wr_ok _ 1 _ (by omega), C_pure_bind, wr_ok _ 2 _ (by omega), C_pure_bind, wr_ok _ 3 _ (by omega), C_pure_bind, wr_ok _ 4 _ (by omega), C_pure_bind, wr_ok _ 5 _ (by omega), C_pure_bind]
  have hmask : (((((((Env.junkArr env 64 6).set 0 0x5555555555555555).set 1 0x3333333333333333).set 2 0x0f0f0f0f0f0f0f0f).set 3 0x00ff00ff00ff00ff).set 4 0x0000ffff0000ffff).set 5 0x00000000ffffffff) = (#v[0x5555555555555555, 0x3333333333333333, 0x0f0f0f0f0f0f0f0f, 0x00ff00ff00ff00ff, 0x0000ffff0000ffff, 0x00000000ffffffff] : Vector (BitVec 64) 6) := by
    ext j hj
    obtain rfl | rfl | rfl | rfl | rfl | rfl : j = 0 ∨ j = 1 ∨ j = 2 ∨ j = 3 ∨ j = 4 ∨ j = 5 := by omega
    all_goals simp
  rw [hmask]
  clear hmask
  refine Ok.bind (P := fun B => mat64 B = (mat64 A)ᵀ) ?_ ?_
  · refine Ok.forUp (fun j A' => Exch 64 (1 <<< j) (bitsS 64 A) (bitsS 64 A')) (Nat.zero_le _)
      (Exch.one _ _) ?_ ?_
    · intro j A' _ hj hI
      obtain ⟨hP, hn⟩ := pairs64 j hj
      have hm := masks64 j hj
      have hr := maskGet (v := (#v[0x5555555555555555, 0x3333333333333333, 0x0f0f0f0f0f0f0f0f, 0x00ff00ff00ff00ff, 0x0000ffff0000ffff, 0x00000000ffffffff] : Vector (BitVec 64) 6)) hj
      generalize ((#v[0x5555555555555555, 0x3333333333333333, 0x0f0f0f0f0f0f0f0f, 0x00ff00ff00ff00ff, 0x0000ffff0000ffff, 0x00000000ffffffff] : Vector (BitVec 64) 6)[j]?.getD 0) = m at hm hr
      refine (stage (n := 64) hP (shl_pos j) (newLo m (1 <<< j)) (newHi m (1 <<< j)) _ ?_ A').mono ?_
      · intro i hi M h
        exact transBody M (shl_pos j) h hr
      · intro A'' h
        rw [← shl_succ]
        exact stageS (shl_pos j) (by omega) hm hn (newLo m (1 <<< j)) (newHi m (1 <<< j)) (fun _ _ _ _ => rfl) (fun _ _ _ _ => rfl)
          (fun r h p hp => BitVec.getLsbD_of_ge _ _ hp) hI h
    · intro B hB
      exact transS_of_exch hB
  · intro B hB
    rw [copyM64_eq, Ok.ok_iff]
    exact hB

theorem pairs128 : ∀ j, j < 6 → PairsOK 128 (1 <<< j) ∧ 64 % (1 <<< j * 2) = 0 := by
  decide +kernel

theorem inrange128 : ∀ j, j < 7 → ∀ r, r < 128 → r / (1 <<< j) % 2 = 0 → r + 1 <<< j < 128 := by
  decide +kernel

theorem MattransM128_ok (env : Env) (A T : M128) :
    Ok (MattransM128 env A T) (fun B => mat128 B = (mat128 A)ᵀ) := by
  unfold MattransM128
  dsimp only
  rw [wr_ok _ 0 _ (by omega), C_pure_bind, wr_ok _ 1 _ (by omega), C_pure_bind, wr_ok _ 2 _ (by omega), C_pure_bind, wr_ok _ 3 _ (by omega), C_pure_bind, wr_ok _ 4 _ (by omega), C_pure_bind, wr_ok _ 5 _ (by omega), C_pure_bind]
  have hmask : (((((((Env.junkArr env 64 6).set 0 0x5555555555555555).set 1 0x3333333333333333).set 2 0x0f0f0f0f0f0f0f0f).set 3 0x00ff00ff00ff00ff).set 4 0x0000ffff0000ffff).set 5 0x00000000ffffffff) = (#v[0x5555555555555555, 0x3333333333333333, 0x0f0f0f0f0f0f0f0f, 0x00ff00ff00ff00ff, 0x0000ffff0000ffff, 0x00000000ffffffff] : Vector (BitVec 64) 6) := by
    ext j hj
    obtain rfl | rfl | rfl | rfl | rfl | rfl : j = 0 ∨ j = 1 ∨ j = 2 ∨ j = 3 ∨ j = 4 ∨ j = 5 := by omega
    all_goals simp
  rw [hmask]
  clear hmask
  refine Ok.bind (P := fun B => Exch 128 (64 * 1) (bitsW A) (bitsW B)) ?_ ?_
  · refine Ok.forUp (fun j A' => Exch 128 (1 <<< j) (bitsW A) (bitsW A')) (Nat.zero_le _)
      (Exch.one _ _) ?_ (fun _ h => h)
    intro j A' _ hj hI
    obtain ⟨hP, hn⟩ := pairs128 j hj
    have hm := masks64 j hj
    have hr := maskGet (v := (#v[0x5555555555555555, 0x3333333333333333, 0x0f0f0f0f0f0f0f0f, 0x00ff00ff00ff00ff, 0x0000ffff0000ffff, 0x00000000ffffffff] : Vector (BitVec 64) 6)) hj
    generalize ((#v[0x5555555555555555, 0x3333333333333333, 0x0f0f0f0f0f0f0f0f, 0x00ff00ff00ff00ff, 0x0000ffff0000ffff, 0x00000000ffffffff] : Vector (BitVec 64) 6)[j]?.getD 0) = m at hm hr
    refine (stage (n := 128) hP (shl_pos j)
      (fun x y => Vector.ofFn fun q : Fin 2 => newLo m (1 <<< j) x[q] y[q])
      (fun x y => Vector.ofFn fun q : Fin 2 => newHi m (1 <<< j) x[q] y[q]) _ ?_ A').mono ?_
    · intro i hi M h
      refine transWord M (shl_pos j) h (q := 0) (by omega) hr _ _ ?_
      intro M1 h1
      refine transWordEnd M1 (shl_pos j) h (q := 1) (by omega) hr _ ?_
      intro M2 h2
      have hc : ∀ r x, r < 128 → x < 2 → cell M2 r x =
          if r = pairRow 128 (1 <<< j) i then
            newLo m (1 <<< j) (cell M (pairRow 128 (1 <<< j) i) x) (cell M (pairRow 128 (1 <<< j) i + 1 <<< j) x)
          else if r = pairRow 128 (1 <<< j) i + 1 <<< j then
            newHi m (1 <<< j) (cell M (pairRow 128 (1 <<< j) i) x) (cell M (pairRow 128 (1 <<< j) i + 1 <<< j) x)
          else cell M r x := by
        have hp := shl_pos j
        generalize pairRow 128 (1 <<< j) i = a at *
        generalize 1 <<< j = k at *
        intro r x hr' hx
        obtain rfl | rfl : x = 0 ∨ x = 1 := by omega
        · rw [h2 _ _ hr' (by omega), if_neg (show ¬ (0 : Nat) = 1 by omega), h1 _ _ hr' (by omega), if_pos rfl]

        · rw [h2 _ _ hr' (by omega), if_pos rfl]
          rw [h1 a 1 (by omega) (by omega), h1 (a + k) 1 (by omega) (by omega), h1 r 1 (by omega) (by omega)]
          simp only [if_neg (show ¬ (1 : Nat) = 0 by omega)]

      have hlt : pairRow 128 (1 <<< j) i < 128 := Nat.lt_of_le_of_lt (Nat.le_add_right _ _) h
      refine ⟨?_, ?_, fun r hr' h1 h2 => ?_⟩
      · refine Vector.ext fun q hq => ?_
        rw [← cell_eq _ hlt hq, hc _ _ hlt hq, if_pos rfl, Vector.getElem_ofFn, cell_eq M h hq,
          cell_eq M hlt hq]
        rfl
      · refine Vector.ext fun q hq => ?_
        have := shl_pos j
        rw [← cell_eq _ h hq, hc _ _ h hq, if_neg (by omega), if_pos rfl, Vector.getElem_ofFn,
          cell_eq M h hq, cell_eq M hlt hq]
        rfl
      · refine Vector.ext fun q hq => ?_
        rw [← cell_eq _ hr' hq, hc _ _ hr' hq, if_neg h1, if_neg h2, cell_eq _ hr' hq]
    · intro A'' h
      rw [← shl_succ]
      refine stageW (by norm_num) (shl_pos j) hm hn (inrange128 j (by omega)) hI ?_
      intro r h' h0 q hq
      rw [(h r h' h0).1, (h r h' h0).2]
      simp
  intro A1 hA1
  refine Ok.bind (blockLoop (B := 64) (sig 1) ?_ _ ?_ ?_ A1) ?_
  · intro r q hr hq
    unfold sig
    split
    · simp; omega
    · split <;> simp <;> omega
  · intro r _; omega
  · intro i M hi
    refine swapCellEnd M (a := i + 64) (p := 0) (b := i) (q := 1) (by omega)
      (by omega) (by omega) (by omega) (by omega) _ ?_
    intro M1 h1 r q hr hq
    rw [h1 r q hr hq]
    unfold sig
    obtain rfl | rfl : q = 0 ∨ q = 1 := by omega
    · by_cases e : r % 64 = i
      · obtain rfl | rfl : r = i ∨ r = i + 64 := by omega
        · simp [Nat.div_eq_of_lt hi]
        · have : (i + 64) / 64 = 1 := by omega
          simp [this, Nat.mod_eq_of_lt hi]
      · rw [if_neg e, if_neg (by omega), if_neg (by omega)]
    · by_cases e : r % 64 = i
      · obtain rfl | rfl : r = i ∨ r = i + 64 := by omega
        · simp [Nat.div_eq_of_lt hi, Nat.mod_eq_of_lt hi]
        · have : (i + 64) / 64 = 1 := by omega
          simp [this]
      · rw [if_neg e, if_neg (by omega), if_neg (by omega)]
  intro A2 hA2
  have h2 := stageCell (t := 1) (by norm_num) (by omega) (inrange128 6 (by omega)) hA1 hA2
  rw [copyM128_eq, Ok.ok_iff]
  exact transW_of_exch h2

theorem pairs256 : ∀ j, j < 6 → PairsOK 256 (1 <<< j) ∧ 64 % (1 <<< j * 2) = 0 := by
  decide +kernel

theorem inrange256 : ∀ j, j < 8 → ∀ r, r < 256 → r / (1 <<< j) % 2 = 0 → r + 1 <<< j < 256 := by
  decide +kernel

theorem MattransM256_ok (env : Env) (A T : M256) :
    Ok (MattransM256 env A T) (fun B => mat256 B = (mat256 A)ᵀ) := by
  unfold MattransM256
  dsimp only
  rw [wr_ok _ 0 _ (by omega), C_pure_bind, wr_ok _ 1 _ (by omega), C_pure_bind, wr_ok _ 2 _ (by omega), C_pure_bind, wr_ok _ 3 _ (by omega), C_pure_bind, wr_ok _ 4 _ (by omega), C_pure_bind, wr_ok _ 5 _ (by omega), C_pure_bind]
  have hmask : (((((((Env.junkArr env 64 6).set 0 0x5555555555555555).set 1 0x3333333333333333).set 2 0x0f0f0f0f0f0f0f0f).set 3 0x00ff00ff00ff00ff).set 4 0x0000ffff0000ffff).set 5 0x00000000ffffffff) = (#v[0x5555555555555555, 0x3333333333333333, 0x0f0f0f0f0f0f0f0f, 0x00ff00ff00ff00ff, 0x0000ffff0000ffff, 0x00000000ffffffff] : Vector (BitVec 64) 6) := by
    ext j hj
    obtain rfl | rfl | rfl | rfl | rfl | rfl : j = 0 ∨ j = 1 ∨ j = 2 ∨ j = 3 ∨ j = 4 ∨ j = 5 := by omega
    all_goals simp
  rw [hmask]
  clear hmask
  refine Ok.bind (P := fun B => Exch 256 (64 * 1) (bitsW A) (bitsW B)) ?_ ?_
  · refine Ok.forUp (fun j A' => Exch 256 (1 <<< j) (bitsW A) (bitsW A')) (Nat.zero_le _)
      (Exch.one _ _) ?_ (fun _ h => h)
    intro j A' _ hj hI
    obtain ⟨hP, hn⟩ := pairs256 j hj
    have hm := masks64 j hj
    have hr := maskGet (v := (#v[0x5555555555555555, 0x3333333333333333, 0x0f0f0f0f0f0f0f0f, 0x00ff00ff00ff00ff, 0x0000ffff0000ffff, 0x00000000ffffffff] : Vector (BitVec 64) 6)) hj
    generalize ((#v[0x5555555555555555, 0x3333333333333333, 0x0f0f0f0f0f0f0f0f, 0x00ff00ff00ff00ff, 0x0000ffff0000ffff, 0x00000000ffffffff] : Vector (BitVec 64) 6)[j]?.getD 0) = m at hm hr
    refine (stage (n := 256) hP (shl_pos j)
      (fun x y => Vector.ofFn fun q : Fin 4 => newLo m (1 <<< j) x[q] y[q])
      (fun x y => Vector.ofFn fun q : Fin 4 => newHi m (1 <<< j) x[q] y[q]) _ ?_ A').mono ?_
    · intro i hi M h
      refine transWord M (shl_pos j) h (q := 0) (by omega) hr _ _ ?_
      intro M1 h1
      refine transWord M1 (shl_pos j) h (q := 1) (by omega) hr _ _ ?_
      intro M2 h2
      refine transWord M2 (shl_pos j) h (q := 2) (by omega) hr _ _ ?_
      intro M3 h3
      refine transWordEnd M3 (shl_pos j) h (q := 3) (by omega) hr _ ?_
      intro M4 h4
      have hc : ∀ r x, r < 256 → x < 4 → cell M4 r x =
          if r = pairRow 256 (1 <<< j) i then
            newLo m (1 <<< j) (cell M (pairRow 256 (1 <<< j) i) x) (cell M (pairRow 256 (1 <<< j) i + 1 <<< j) x)
          else if r = pairRow 256 (1 <<< j) i + 1 <<< j then
            newHi m (1 <<< j) (cell M (pairRow 256 (1 <<< j) i) x) (cell M (pairRow 256 (1 <<< j) i + 1 <<< j) x)
          else cell M r x := by
        have hp := shl_pos j
        generalize pairRow 256 (1 <<< j) i = a at *
        generalize 1 <<< j = k at *
        intro r x hr' hx
        obtain rfl | rfl | rfl | rfl : x = 0 ∨ x = 1 ∨ x = 2 ∨ x = 3 := by omega
        · rw [h4 _ _ hr' (by omega), if_neg (show ¬ (0 : Nat) = 3 by omega), h3 _ _ hr' (by omega), if_neg (show ¬ (0 : Nat) = 2 by omega), h2 _ _ hr' (by omega), if_neg (show ¬ (0 : Nat) = 1 by omega), h1 _ _ hr' (by omega), if_pos rfl]

        · rw [h4 _ _ hr' (by omega), if_neg (show ¬ (1 : Nat) = 3 by omega), h3 _ _ hr' (by omega), if_neg (show ¬ (1 : Nat) = 2 by omega), h2 _ _ hr' (by omega), if_pos rfl]
          rw [h1 a 1 (by omega) (by omega), h1 (a + k) 1 (by omega) (by omega), h1 r 1 (by omega) (by omega)]
          simp only [if_neg (show ¬ (1 : Nat) = 0 by omega)]

        · rw [h4 _ _ hr' (by omega), if_neg (show ¬ (2 : Nat) = 3 by omega), h3 _ _ hr' (by omega), if_pos rfl]
          rw [h2 a 2 (by omega) (by omega), h2 (a + k) 2 (by omega) (by omega), h2 r 2 (by omega) (by omega)]
          simp only [if_neg (show ¬ (2 : Nat) = 1 by omega)]
          rw [h1 a 2 (by omega) (by omega), h1 (a + k) 2 (by omega) (by omega), h1 r 2 (by omega) (by omega)]
          simp only [if_neg (show ¬ (2 : Nat) = 0 by omega)]

        · rw [h4 _ _ hr' (by omega), if_pos rfl]
          rw [h3 a 3 (by omega) (by omega), h3 (a + k) 3 (by omega) (by omega), h3 r 3 (by omega) (by omega)]
          simp only [if_neg (show ¬ (3 : Nat) = 2 by omega)]
          rw [h2 a 3 (by omega) (by omega), h2 (a + k) 3 (by omega) (by omega), h2 r 3 (by omega) (by omega)]
          simp only [if_neg (show ¬ (3 : Nat) = 1 by omega)]
          rw [h1 a 3 (by omega) (by omega), h1 (a + k) 3 (by omega) (by omega), h1 r 3 (by omega) (by omega)]
          simp only [if_neg (show ¬ (3 : Nat) = 0 by omega)]

      have hlt : pairRow 256 (1 <<< j) i < 256 := Nat.lt_of_le_of_lt (Nat.le_add_right _ _) h
      refine ⟨?_, ?_, fun r hr' h1 h2 => ?_⟩
      · refine Vector.ext fun q hq => ?_
        rw [← cell_eq _ hlt hq, hc _ _ hlt hq, if_pos rfl, Vector.getElem_ofFn, cell_eq M h hq,
          cell_eq M hlt hq]
        rfl
      · refine Vector.ext fun q hq => ?_
        have := shl_pos j
        rw [← cell_eq _ h hq, hc _ _ h hq, if_neg (by omega), if_pos rfl, Vector.getElem_ofFn,
          cell_eq M h hq, cell_eq M hlt hq]
        rfl
      · refine Vector.ext fun q hq => ?_
        rw [← cell_eq _ hr' hq, hc _ _ hr' hq, if_neg h1, if_neg h2, cell_eq _ hr' hq]
    · intro A'' h
      rw [← shl_succ]
      refine stageW (by norm_num) (shl_pos j) hm hn (inrange256 j (by omega)) hI ?_
      intro r h' h0 q hq
      rw [(h r h' h0).1, (h r h' h0).2]
      simp
  intro A1 hA1
  refine Ok.bind (blockLoop (B := 64) (sig 1) ?_ _ ?_ ?_ A1) ?_
  · intro r q hr hq
    unfold sig
    split
    · simp; omega
    · split <;> simp <;> omega
  · intro r _; omega
  · intro i M hi
    refine swapCell M (a := i + 64) (p := 0) (b := i) (q := 1) (by omega)
      (by omega) (by omega) (by omega) (by omega) _ _ ?_
    intro M1 h1
    refine swapCell M1 (a := i + 64) (p := 2) (b := i) (q := 3) (by omega)
      (by omega) (by omega) (by omega) (by omega) _ _ ?_
    intro M2 h2
    refine swapCell M2 (a := i + 192) (p := 0) (b := i + 128) (q := 1) (by omega)
      (by omega) (by omega) (by omega) (by omega) _ _ ?_
    intro M3 h3
    refine swapCellEnd M3 (a := i + 192) (p := 2) (b := i + 128) (q := 3) (by omega)
      (by omega) (by omega) (by omega) (by omega) _ ?_
    intro M4 h4 r q hr hq
    by_cases e : r % 64 = i
    · rw [if_pos e]
      have d0 : i / 64 = 0 := Nat.div_eq_of_lt hi
      have d1 : (i + 64) / 64 = 1 := by omega
      have d2 : (i + 128) / 64 = 2 := by omega
      have d3 : (i + 192) / 64 = 3 := by omega
      have ⟨k0, k1, k2, k3⟩ : i < 256 ∧ i + 64 < 256 ∧ i + 128 < 256 ∧ i + 192 < 256 := by omega
      obtain rfl | rfl | rfl | rfl : r = i ∨ r = i + 64 ∨ r = i + 128 ∨ r = i + 192 := by omega
      all_goals
        obtain rfl | rfl | rfl | rfl : q = 0 ∨ q = 1 ∨ q = 2 ∨ q = 3 := by omega
      all_goals
        simp [sig, d0, d1, d2, d3, h4, h3, h2, h1, k0, k1, k2, k3]
    · rw [if_neg e, h4 _ _ hr hq, if_neg (by omega), if_neg (by omega), h3 _ _ hr hq,
        if_neg (by omega), if_neg (by omega), h2 _ _ hr hq, if_neg (by omega), if_neg (by omega),
        h1 _ _ hr hq, if_neg (by omega), if_neg (by omega)]
  intro A2 hA2
  have g2 := stageCell (t := 1) (by norm_num) (by omega) (inrange256 6 (by omega)) hA1 hA2
  refine Ok.bind (blockLoop (B := 128) (sig 2) ?_ _ ?_ ?_ A2) ?_
  · intro r q hr hq
    unfold sig
    split
    · simp; omega
    · split <;> simp <;> omega
  · intro r _; omega
  · intro i M hi
    refine swapCell M (a := i + 128) (p := 0) (b := i) (q := 2) (by omega)
      (by omega) (by omega) (by omega) (by omega) _ _ ?_
    intro M1 h1
    refine swapCellEnd M1 (a := i + 128) (p := 1) (b := i) (q := 3) (by omega)
      (by omega) (by omega) (by omega) (by omega) _ ?_
    intro M2 h2 r q hr hq
    by_cases e : r % 128 = i
    · rw [if_pos e]
      have d0 : i / 128 = 0 := Nat.div_eq_of_lt hi
      have d1 : (i + 128) / 128 = 1 := by omega
      have ⟨k0, k1⟩ : i < 256 ∧ i + 128 < 256 := by omega
      obtain rfl | rfl : r = i ∨ r = i + 128 := by omega
      all_goals
        obtain rfl | rfl | rfl | rfl : q = 0 ∨ q = 1 ∨ q = 2 ∨ q = 3 := by omega
      all_goals
        simp [sig, d0, d1, h2, h1, k0, k1]
    · rw [if_neg e, h2 _ _ hr hq, if_neg (by omega), if_neg (by omega), h1 _ _ hr hq,
        if_neg (by omega), if_neg (by omega)]
  intro A3 hA3
  have g3 := stageCell (t := 2) (by norm_num) (by omega) (inrange256 7 (by omega)) g2 hA3
  rw [copyM256_eq, Ok.ok_iff]
  exact transW_of_exch g3

end WB
