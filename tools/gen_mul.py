#!/usr/bin/env python3
"""Writes lean/Verif/Proof/TransAll.lean and lean/Verif/Proof/MulAll.lean."""
import os
D = os.path.join(os.path.dirname(__file__), '..', 'lean', 'Verif', 'Proof')
W = {4: 8, 8: 8, 16: 16, 32: 32, 64: 64}
L = {128: 2, 256: 4}
LOG = {4: 2, 8: 3, 16: 4, 32: 5, 64: 6}
o = ['''import Verif.Proof.Trans

/-!
# `MattransM*` for every size (helper lemmas)

Written by `tools/gen_mul.py`.
-/
namespace WB
open Matrix

theorem shl_pos (j : Nat) : 0 < 1 <<< j := by
  rw [Nat.one_shiftLeft]; exact Nat.two_pow_pos j

theorem shl_succ (j : Nat) : 1 <<< j * 2 = 1 <<< (j + 1) := by
  rw [Nat.one_shiftLeft, Nat.one_shiftLeft, Nat.pow_succ]

theorem transBody {w n : Nat} (M : Vector (BitVec w) n) {l k J j : Nat} (hk : 0 < k)
    (hl : l + k < n) {mask : Vector (BitVec w) J} {m : BitVec w} (hm : rd mask j = .ok m) :
    Ok (do
      let temp := ((← rd M l) &&& ~~~(← rd mask j)) ^^^ (((← rd M (l + k)) &&& ~~~(← rd mask j)) >>> k)
      let M ← wr M (l + k) (((← rd M (l + k)) &&& (← rd mask j)) ^^^ (((← rd M l) &&& (← rd mask j)) <<< k))
      wr M l temp) (fun M' => M'[l] = newLo m k M[l] M[l + k] ∧ M'[l + k] = newHi m k M[l] M[l + k] ∧
        ∀ r (h : r < n), r ≠ l → r ≠ l + k → M'[r] = M[r]) := by
  rw [hm, rd_ok M l (by omega), rd_ok M (l + k) hl]
  simp only [C_pure_bind]
  rw [wr_ok _ _ _ hl, C_pure_bind, wr_ok _ _ _ (by omega : l < n), Ok.ok_iff]
  refine ⟨by simp; rfl, ?_, fun r h h1 h2 => ?_⟩
  · rw [Vector.getElem_set_ne _ _ (by omega), Vector.getElem_set_self]; rfl
  · rw [Vector.getElem_set_ne _ _ (by omega), Vector.getElem_set_ne _ _ (by omega)]

theorem transBody4 (M : M4) {l k J j : Nat} (hk : 0 < k)
    (hl : l + k < 4) {mask : Vector (BitVec 8) J} {m : BitVec 8} (hm : rd mask j = .ok m) :
    Ok (do
      let temp := (((← rd M l) &&& ~~~(← rd mask j)) ^^^ (((← rd M (l + k)) &&& ~~~(← rd mask j)) >>> k)) &&& 0x0f
      let M ← wr M (l + k) ((((← rd M (l + k)) &&& (← rd mask j)) ^^^ (((← rd M l) &&& (← rd mask j)) <<< k)) &&& 0x0f)
      wr M l temp) (fun M' => M'[l] = newLo m k M[l] M[l + k] &&& 0x0f ∧
        M'[l + k] = newHi m k M[l] M[l + k] &&& 0x0f ∧
        ∀ r (h : r < 4), r ≠ l → r ≠ l + k → M'[r] = M[r]) := by
  rw [hm, rd_ok M l (by omega), rd_ok M (l + k) hl]
  simp only [C_pure_bind]
  rw [wr_ok _ _ _ hl, C_pure_bind, wr_ok _ _ _ (by omega : l < 4), Ok.ok_iff]
  refine ⟨by simp; rfl, ?_, fun r h h1 h2 => ?_⟩
  · rw [Vector.getElem_set_ne _ _ (by omega), Vector.getElem_set_self]; rfl
  · rw [Vector.getElem_set_ne _ _ (by omega), Vector.getElem_set_ne _ _ (by omega)]

theorem bitS4_mask (x : BitVec 8) {c : Nat} (h : c < 4) : bitS 4 (x &&& 0x0f) c = bitS 4 x c := by
  unfold bitS
  rw [BitVec.getLsbD_and]
  have : (0x0f : BitVec 8).getLsbD (4 - 1 - c) = true := by
    obtain rfl | rfl | rfl | rfl : c = 0 ∨ c = 1 ∨ c = 2 ∨ c = 3 := by omega
    all_goals decide
  rw [this, Bool.and_true]

theorem high4_mask (x : BitVec 8) (p : Nat) (h : 4 ≤ p) : (x &&& 0x0f).getLsbD p = false := by
  rw [BitVec.getLsbD_and]
  have : (0x0f : BitVec 8).getLsbD p = false := by
    by_cases hp : p < 8
    · obtain rfl | rfl | rfl | rfl : p = 4 ∨ p = 5 ∨ p = 6 ∨ p = 7 := by omega
      all_goals decide
    · exact BitVec.getLsbD_of_ge _ _ (by omega)
  rw [this, Bool.and_false]

/-! ## Multi-word rows -/

/-- The `q`-th word of row `r`. -/
def cell {l n : Nat} (M : Vector (Vector (BitVec 64) l) n) (r q : Nat) : BitVec 64 :=
  (M[r]?.getD (Vector.replicate l 0))[q]?.getD 0

theorem cell_eq {l n : Nat} (M : Vector (Vector (BitVec 64) l) n) {r q : Nat} (hr : r < n)
    (hq : q < l) : cell M r q = M[r][q] := by simp [cell, hr, hq]

theorem bitsW_cell {l n : Nat} (M : Vector (Vector (BitVec 64) l) n) {r c : Nat} (hr : r < n)
    (hc : c / 64 < l) : bitsW M r c = (cell M r (c / 64)).getLsbD (63 - c % 64) := by
  rw [bitsW_eq _ hr, bitW_eq _ _ hc, cell_eq _ hr hc]

theorem cell_set2 {l n : Nat} (M : Vector (Vector (BitVec 64) l) n) {a p : Nat} (ha : a < n)
    (hp : p < l) (x : BitVec 64) {r q : Nat} (hr : r < n) (hq : q < l) :
    cell (M.set a (M[a].set p x)) r q = if r = a ∧ q = p then x else cell M r q := by
  rw [cell_eq _ hr hq, cell_eq _ hr hq]
  by_cases h : r = a
  · subst h
    rw [Vector.getElem_set_self]
    by_cases h' : q = p
    · subst h'; simp
    · rw [Vector.getElem_set_ne _ _ (Ne.symm h')]; simp [h']
  · rw [Vector.getElem_set_ne _ _ (Ne.symm h)]; simp [h]

theorem swapCell {β : Type} {l n : Nat} (M : Vector (Vector (BitVec 64) l) n) {a p b q : Nat}
    (ha : a < n) (hp : p < l) (hb : b < n) (hq : q < l) (hne : a ≠ b)
    (rest : Vector (Vector (BitVec 64) l) n → C β) (Q : β → Prop)
    (h : ∀ M', (∀ r x, r < n → x < l → cell M' r x =
      if r = a ∧ x = p then cell M b q else if r = b ∧ x = q then cell M a p else cell M r x) →
      Ok (rest M') Q) :
    Ok (do
      let temp ← rd2 M a p
      let M ← wr2 M a p (← rd2 M b q)
      let M ← wr2 M b q temp
      rest M) Q := by
  rw [rd2_ok _ _ _ ha hp, rd2_ok _ _ _ hb hq]
  simp only [C_pure_bind]
  rw [wr2_ok _ _ _ _ ha hp, C_pure_bind, wr2_ok _ _ _ _ hb hq, C_pure_bind]
  apply h
  intro r x hr hx
  rw [cell_set2 _ hb hq _ hr hx, cell_set2 _ ha hp _ hr hx, cell_eq M ha hp, cell_eq M hb hq]
  by_cases h1 : r = b ∧ x = q
  · rw [if_pos h1, if_neg (by omega), if_pos h1]
  · rw [if_neg h1, if_neg h1]

theorem swapCellEnd {l n : Nat} (M : Vector (Vector (BitVec 64) l) n) {a p b q : Nat}
    (ha : a < n) (hp : p < l) (hb : b < n) (hq : q < l) (hne : a ≠ b)
    (Q : Vector (Vector (BitVec 64) l) n → Prop)
    (h : ∀ M', (∀ r x, r < n → x < l → cell M' r x =
      if r = a ∧ x = p then cell M b q else if r = b ∧ x = q then cell M a p else cell M r x) →
      Q M') :
    Ok (do
      let temp ← rd2 M a p
      let M ← wr2 M a p (← rd2 M b q)
      wr2 M b q temp) Q := by
  have := swapCell M ha hp hb hq hne pure Q (fun M' h' => (Ok.pure_iff _ _).2 (h M' h'))
  simpa only [bind_pure] using this

/-- A loop that permutes the words of the rows congruent to the loop counter. -/
theorem blockLoop {l n B : Nat} (σ : Nat → Nat → Nat × Nat)
    (hσ : ∀ r q, r < n → q < l → (σ r q).1 < n ∧ (σ r q).2 < l ∧ (σ r q).1 % B = r % B)
    (body : Nat → Vector (Vector (BitVec 64) l) n → C (Vector (Vector (BitVec 64) l) n))
    (hB : ∀ r, r < n → r % B < B)
    (hb : ∀ i M, i < B → Ok (body i M) (fun M' => ∀ r q, r < n → q < l →
      cell M' r q = if r % B = i then cell M (σ r q).1 (σ r q).2 else cell M r q))
    (M : Vector (Vector (BitVec 64) l) n) :
    Ok (forUp 0 B M body) (fun M' => ∀ r q, r < n → q < l →
      cell M' r q = cell M (σ r q).1 (σ r q).2) := by
  refine Ok.forUp (fun i M' => ∀ r q, r < n → q < l →
    cell M' r q = if r % B < i then cell M (σ r q).1 (σ r q).2 else cell M r q)
    (Nat.zero_le _) ?_ ?_ ?_
  · intro r q _ _; simp
  · intro i M' _ hi h
    refine (hb i M' hi).mono ?_
    intro M'' h' r q hr hq
    obtain ⟨s1, s2, s3⟩ := hσ r q hr hq
    rw [h' r q hr hq]
    by_cases e : r % B = i
    · rw [if_pos e, if_pos (by omega), h _ _ s1 s2, if_neg (by omega)]
    · rw [if_neg e, h r q hr hq]
      by_cases e' : r % B < i
      · rw [if_pos e', if_pos (by omega)]
      · rw [if_neg e', if_neg (by omega)]
  · intro M' h r q hr hq
    rw [h r q hr hq, if_pos (hB r hr)]

/-- Exchange of one of the high index bits (`k = 64·t`). -/
def sig (t r q : Nat) : Nat × Nat :=
  if r / (64 * t) % 2 = q / t % 2 then (r, q)
  else if r / (64 * t) % 2 = 0 then (r + 64 * t, q - t) else (r - 64 * t, q + t)

theorem stageCell {l n t : Nat} (hl : n = 64 * l) (ht : 0 < t) {a : Nat → Nat → Bool}
    {A A' : Vector (Vector (BitVec 64) l) n}
    (hN : ∀ r, r < n → r / (64 * t) % 2 = 0 → r + 64 * t < n)
    (h : Exch n (64 * t) a (bitsW A))
    (hc : ∀ r q, r < n → q < l → cell A' r q = cell A (sig t r q).1 (sig t r q).2) :
    Exch n (64 * t * 2) a (bitsW A') := by
  have hd : ∀ c, c / (64 * t) = c / 64 / t := fun c => (Nat.div_div_eq_div_mul c 64 t).symm
  have hd1 : ∀ c, (c + 64 * t) / 64 = c / 64 + t := by intro c; omega
  have hd2 : ∀ c, (c + 64 * t) % 64 = c % 64 := by intro c; omega
  refine h.step (by omega) hN ?_ ?_
  · intro r c hr hc' e
    rw [bitsW_cell _ hr (by omega), bitsW_cell _ hr (by omega), hc r _ hr (by omega)]
    unfold sig
    rw [if_pos (by rw [← hd c]; exact e)]
  · intro r c hr hc' h0 h1
    have e1 : c / 64 / t % 2 = 0 := by rw [← hd]; exact h1
    have e2 : (c / 64 + t) / t % 2 = 1 := by rw [Nat.add_div_right _ ht]; omega
    have e3 : (r + 64 * t) / (64 * t) % 2 = 1 := by rw [Nat.add_div_right _ (by omega)]; omega
    rw [bitsW_cell _ (by omega) (by omega), bitsW_cell _ hr (by omega), bitsW_cell _ hr (by omega),
      bitsW_cell _ (by omega) (by omega), hc r _ (by omega) (by omega), hc _ _ hr (by omega)]
    simp only [hd1, hd2]
    unfold sig
    rw [if_neg (by omega), if_pos h0, if_neg (by omega), if_neg (by omega)]
    simp

theorem transWord {β : Type} {l n : Nat} (M : Vector (Vector (BitVec 64) l) n) {a k q J j : Nat}
    (hk : 0 < k) (ha : a + k < n) (hq : q < l) {mask : Vector (BitVec 64) J} {m : BitVec 64}
    (hm : rd mask j = .ok m)
    (rest : Vector (Vector (BitVec 64) l) n → C β) (Q : β → Prop)
    (h : ∀ M', (∀ r x, r < n → x < l → cell M' r x =
      if x = q then
        (if r = a then newLo m k (cell M a q) (cell M (a + k) q)
        else if r = a + k then newHi m k (cell M a q) (cell M (a + k) q) else cell M r x)
      else cell M r x) → Ok (rest M') Q) :
    Ok (do
      let temp := ((← rd2 M a q) &&& ~~~(← rd mask j)) ^^^ (((← rd2 M (a + k) q) &&& ~~~(← rd mask j)) >>> k)
      let M ← wr2 M (a + k) q (((← rd2 M (a + k) q) &&& (← rd mask j)) ^^^ (((← rd2 M a q) &&& (← rd mask j)) <<< k))
      let M ← wr2 M a q temp
      rest M) Q := by
  rw [hm, rd2_ok _ _ _ ha hq, rd2_ok _ _ _ (by omega : a < n) hq]
  simp only [C_pure_bind]
  rw [wr2_ok _ _ _ _ ha hq, C_pure_bind, wr2_ok _ _ _ _ (by omega : a < n) hq, C_pure_bind]
  apply h
  intro r x hr hx
  rw [cell_set2 _ (by omega) hq _ hr hx, cell_set2 _ ha hq _ hr hx, cell_eq M ha hq,
    cell_eq M (by omega : a < n) hq]
  by_cases hxq : x = q
  · subst hxq
    simp only [and_true, if_true]
    rfl
  · simp [hxq]

theorem transWordEnd {l n : Nat} (M : Vector (Vector (BitVec 64) l) n) {a k q J j : Nat}
    (hk : 0 < k) (ha : a + k < n) (hq : q < l) {mask : Vector (BitVec 64) J} {m : BitVec 64}
    (hm : rd mask j = .ok m)
    (Q : Vector (Vector (BitVec 64) l) n → Prop)
    (h : ∀ M', (∀ r x, r < n → x < l → cell M' r x =
      if x = q then
        (if r = a then newLo m k (cell M a q) (cell M (a + k) q)
        else if r = a + k then newHi m k (cell M a q) (cell M (a + k) q) else cell M r x)
      else cell M r x) → Q M') :
    Ok (do
      let temp := ((← rd2 M a q) &&& ~~~(← rd mask j)) ^^^ (((← rd2 M (a + k) q) &&& ~~~(← rd mask j)) >>> k)
      let M ← wr2 M (a + k) q (((← rd2 M (a + k) q) &&& (← rd mask j)) ^^^ (((← rd2 M a q) &&& (← rd mask j)) <<< k))
      wr2 M a q temp) Q := by
  have := transWord M hk ha hq hm pure Q (fun M' h' => (Ok.pure_iff _ _).2 (h M' h'))
  simpa only [bind_pure] using this

theorem masks64 : ∀ j, j < 6 → MaskOK 64 (1 <<< j)
    ((#v[0x5555555555555555, 0x3333333333333333, 0x0f0f0f0f0f0f0f0f, 0x00ff00ff00ff00ff,
      0x0000ffff0000ffff, 0x00000000ffffffff] : Vector (BitVec 64) 6)[j]?.getD 0) := by
  decide +kernel

theorem maskGet {w J : Nat} {v : Vector (BitVec w) J} {j : Nat} (h : j < J) :
    rd v j = .ok (v[j]?.getD 0) := by
  rw [rd_ok _ _ h]; simp [h]
''']
MASKS = {4: ['0x5', '0x3'], 8: ['0x55', '0x33', '0x0f'],
         16: ['0x5555', '0x3333', '0x0f0f', '0x00ff'],
         32: ['0x55555555', '0x33333333', '0x0f0f0f0f', '0x00ff00ff', '0x0000ffff'],
         64: ['0x5555555555555555', '0x3333333333333333', '0x0f0f0f0f0f0f0f0f',
              '0x00ff00ff00ff00ff', '0x0000ffff0000ffff', '0x00000000ffffffff']}

def maskvec(w, ms):
    return f'(#v[{", ".join(ms)}] : Vector (BitVec {w}) {len(ms)})'

def maskbuild(w, ms, n):
    J = len(ms)
    chain = f'(Env.junkArr env {w} {J})'
    s = '  rw [' + ', C_pure_bind, '.join(f'wr_ok _ {j} _ (by omega)' for j in range(J)) + ', C_pure_bind]\n'
    for j, m in enumerate(ms):
        chain = f'({chain}.set {j} {m})'
    s += f'''  have hmask : {chain} = {maskvec(w, ms)} := by
    ext j hj
    obtain {' | '.join(['rfl'] * J)} : {' ∨ '.join(f'j = {j}' for j in range(J))} := by omega
    all_goals simp
  rw [hmask]
  clear hmask
'''
    return s

for n, w in W.items():
    J = LOG[n]
    ms = MASKS[n]
    hm = 'masks64' if n == 64 else f'masks{n}'
    if n != 64:
        o.append(f'''
theorem masks{n} : ∀ j, j < {J} → MaskOK {n} (1 <<< j) ({maskvec(w, ms)}[j]?.getD 0) := by
  decide +kernel
''')
    o.append(f'''
theorem pairs{n} : ∀ j, j < {J} → PairsOK {n} (1 <<< j) ∧ {n} % (1 <<< j * 2) = 0 := by
  decide +kernel
''')
    hyp = '(hA : CleanM4 A) ' if n == 4 else ''
    if n == 4:
        f0, f1 = f'(fun x y => newLo m (1 <<< j) x y &&& 0x0f)', f'(fun x y => newHi m (1 <<< j) x y &&& 0x0f)'
        hf = '(fun x y c hc => bitS4_mask _ hc) (fun x y c hc => bitS4_mask _ hc)'
        body = 'transBody4'
    else:
        f0, f1 = 'newLo m (1 <<< j)', 'newHi m (1 <<< j)'
        f0, f1 = f'({f0})', f'({f1})'
        hf = '(fun _ _ _ _ => rfl) (fun _ _ _ _ => rfl)'
        body = 'transBody'
    inv = f'Exch {n} (1 <<< j) (bitsS {n} A) (bitsS {n} A\')'
    if n == 4:
        inv = f'({inv} ∧ CleanM4 A\')'
    o.append(f'''
theorem MattransM{n}_ok (env : Env) (A T : M{n}) {hyp}:
    Ok (MattransM{n} env A T) (fun B => mat{n} B = (mat{n} A)ᵀ{' ∧ CleanM4 B' if n == 4 else ''}) := by
  unfold MattransM{n}
  dsimp only
{maskbuild(w, ms, n)}  refine Ok.bind (P := fun B => mat{n} B = (mat{n} A)ᵀ{' ∧ CleanM4 B' if n == 4 else ''}) ?_ ?_
  · refine Ok.forUp (fun j A' => {inv}) (Nat.zero_le _)
      {'⟨Exch.one _ _, hA⟩' if n == 4 else '(Exch.one _ _)'} ?_ ?_
    · {"rintro j A' - hj ⟨hI, hcl⟩" if n == 4 else "intro j A' _ hj hI"}
      obtain ⟨hP, hn⟩ := pairs{n} j hj
      have hm := {hm} j hj
      have hr := maskGet (v := {maskvec(w, ms)}) hj
      generalize ({maskvec(w, ms)}[j]?.getD 0) = m at hm hr
      refine (stage (n := {n}) hP (shl_pos j) {f0} {f1} _ ?_ A').mono ?_
      · intro i hi M h
        exact {body} M (shl_pos j) h hr
      · intro A'' h
''')
    if n == 4:
        o.append(f'''        have hcl' : ∀ r (h : r < 4), ∀ p, 4 ≤ p → A''[r].getLsbD p = false := by
          intro r hr p hp
          rcases Nat.mod_two_eq_zero_or_one (r / (1 <<< j)) with h0 | h0
          · rw [(h r (hm.2 r hr h0) h0).1]; exact high4_mask _ p hp
          · have hkr : 1 <<< j ≤ r := by
              by_contra hlt
              rw [Nat.div_eq_of_lt (by omega)] at h0; omega
            obtain ⟨d, rfl⟩ : ∃ d, r = d + 1 <<< j := ⟨r - 1 <<< j, by omega⟩
            have hd : d / (1 <<< j) % 2 = 0 := by
              rw [Nat.add_div_right _ (shl_pos j)] at h0; omega
            rw [(h d hr hd).2]; exact high4_mask _ p hp
        refine ⟨?_, fun r => clean4_of_bits (hcl' r.val r.2)⟩
        rw [← shl_succ]
        exact stageS (shl_pos j) (by omega) hm hn {f0} {f1} {hf}
          (fun r h p hp => (hcl ⟨r, h⟩).bits4 p hp) hI h
    · rintro B ⟨hB, hcl⟩
      exact ⟨transS_of_exch hB, hcl⟩
''')
    else:
        o.append(f'''        rw [← shl_succ]
        exact stageS (shl_pos j) (by omega) hm hn {f0} {f1} {hf}
          (fun r h p hp => BitVec.getLsbD_of_ge _ _ hp) hI h
    · intro B hB
      exact transS_of_exch hB
''')
    o.append(f'''  · intro B hB
    rw [copyM{n}_eq, Ok.ok_iff]
    exact hB
''')

for n, l in L.items():
    J = 6
    ms = MASKS[64]
    o.append(f'''
theorem pairs{n} : ∀ j, j < 6 → PairsOK {n} (1 <<< j) ∧ 64 % (1 <<< j * 2) = 0 := by
  decide +kernel

theorem inrange{n} : ∀ j, j < {7 if n == 128 else 8} → ∀ r, r < {n} → r / (1 <<< j) % 2 = 0 → r + 1 <<< j < {n} := by
  decide +kernel

theorem MattransM{n}_ok (env : Env) (A T : M{n}) :
    Ok (MattransM{n} env A T) (fun B => mat{n} B = (mat{n} A)ᵀ) := by
  unfold MattransM{n}
  dsimp only
{maskbuild(64, ms, n)}  refine Ok.bind (P := fun B => Exch {n} (64 * 1) (bitsW A) (bitsW B)) ?_ ?_
  · refine Ok.forUp (fun j A' => Exch {n} (1 <<< j) (bitsW A) (bitsW A')) (Nat.zero_le _)
      (Exch.one _ _) ?_ (fun _ h => h)
    intro j A' _ hj hI
    obtain ⟨hP, hn⟩ := pairs{n} j hj
    have hm := masks64 j hj
    have hr := maskGet (v := {maskvec(64, ms)}) hj
    generalize ({maskvec(64, ms)}[j]?.getD 0) = m at hm hr
    refine (stage (n := {n}) hP (shl_pos j)
      (fun x y => Vector.ofFn fun q : Fin {l} => newLo m (1 <<< j) x[q] y[q])
      (fun x y => Vector.ofFn fun q : Fin {l} => newHi m (1 <<< j) x[q] y[q]) _ ?_ A').mono ?_
    · intro i hi M h
''' + '\n'.join((f'''      refine transWord {'M' if q == 0 else f'M{q}'} (shl_pos j) h (q := {q}) (by omega) hr _ _ ?_
      intro M{q+1} h{q+1}''' if q < l - 1 else f'''      refine transWordEnd {'M' if q == 0 else f'M{q}'} (shl_pos j) h (q := {q}) (by omega) hr _ ?_
      intro M{q+1} h{q+1}''') for q in range(l)) + f'''
      have hc : ∀ r x, r < {n} → x < {l} → cell M{l} r x =
          if r = pairRow {n} (1 <<< j) i then
            newLo m (1 <<< j) (cell M (pairRow {n} (1 <<< j) i) x) (cell M (pairRow {n} (1 <<< j) i + 1 <<< j) x)
          else if r = pairRow {n} (1 <<< j) i + 1 <<< j then
            newHi m (1 <<< j) (cell M (pairRow {n} (1 <<< j) i) x) (cell M (pairRow {n} (1 <<< j) i + 1 <<< j) x)
          else cell M r x := by
        have hp := shl_pos j
        generalize pairRow {n} (1 <<< j) i = a at *
        generalize 1 <<< j = k at *
        intro r x hr' hx
        obtain {' | '.join(['rfl']*l)} : {' ∨ '.join(f'x = {q}' for q in range(l))} := by omega
''' + '\n'.join(f'''        · rw [{''.join(f"h{p} _ _ hr' (by omega), if_neg (show ¬ ({q} : Nat) = {p-1} by omega), " for p in range(l, q+1, -1))}h{q+1} _ _ hr' (by omega), if_pos rfl]
''' + ''.join(f'''          rw [h{p} a {q} (by omega) (by omega), h{p} (a + k) {q} (by omega) (by omega), h{p} r {q} (by omega) (by omega)]
          simp only [if_neg (show ¬ ({q} : Nat) = {p-1} by omega)]
''' for p in range(q, 0, -1)) for q in range(l)) + f'''
      have hlt : pairRow {n} (1 <<< j) i < {n} := Nat.lt_of_le_of_lt (Nat.le_add_right _ _) h
      refine ⟨?_, ?_, fun r hr' h1 h2 => ?_⟩
      · refine Vector.ext fun q hq => ?_
        rw [← cell_eq _ hlt hq, hc _ _ hlt hq, if_pos rfl, Vector.getElem_ofFn, cell_eq M h hq,
          cell_eq M hlt hq]
        rfl
      · refine Vector.ext fun q hq => ?_
        have := shl_pos j
        rw [← cell_eq _ h hq, hc _ _ h hq, if_neg (by omega), if_pos rfl, Vector.getElem_ofFn,
          cell_eq M h hq, cell_eq M hlt hq]
        rfl
      · refine Vector.ext fun q hq => ?_
        rw [← cell_eq _ hr' hq, hc _ _ hr' hq, if_neg h1, if_neg h2, cell_eq _ hr' hq]
    · intro A'' h
      rw [← shl_succ]
      refine stageW (by norm_num) (shl_pos j) hm hn (inrange{n} j (by omega)) hI ?_
      intro r h' h0 q hq
      rw [(h r h' h0).1, (h r h' h0).2]
      simp
  intro A1 hA1
''')
    def sw(pre, cells, Mname):
        pass
    if n == 128:
        o.append('''  refine Ok.bind (blockLoop (B := 64) (sig 1) ?_ _ ?_ ?_ A1) ?_
  · intro r q hr hq
    unfold sig
    split
    · simp; omega
    · split <;> simp <;> omega
  · intro r _; omega
  · intro i M hi
    refine swapCellEnd M (a := i + 64) (p := 0) (b := i) (q := 1) (by omega)
      (by omega) (by omega) (by omega) (by omega) _ ?_
    intro M1 h1 r q hr hq
    rw [h1 r q hr hq]
    unfold sig
    obtain rfl | rfl : q = 0 ∨ q = 1 := by omega
    · by_cases e : r % 64 = i
      · obtain rfl | rfl : r = i ∨ r = i + 64 := by omega
        · simp [Nat.div_eq_of_lt hi]
        · have : (i + 64) / 64 = 1 := by omega
          simp [this, Nat.mod_eq_of_lt hi]
      · rw [if_neg e, if_neg (by omega), if_neg (by omega)]
    · by_cases e : r % 64 = i
      · obtain rfl | rfl : r = i ∨ r = i + 64 := by omega
        · simp [Nat.div_eq_of_lt hi, Nat.mod_eq_of_lt hi]
        · have : (i + 64) / 64 = 1 := by omega
          simp [this]
      · rw [if_neg e, if_neg (by omega), if_neg (by omega)]
  intro A2 hA2
  have h2 := stageCell (t := 1) (by norm_num) (by omega) (inrange128 6 (by omega)) hA1 hA2
  rw [copyM128_eq, Ok.ok_iff]
  exact transW_of_exch h2
''')
    else:
        o.append('''  refine Ok.bind (blockLoop (B := 64) (sig 1) ?_ _ ?_ ?_ A1) ?_
  · intro r q hr hq
    unfold sig
    split
    · simp; omega
    · split <;> simp <;> omega
  · intro r _; omega
  · intro i M hi
    refine swapCell M (a := i + 64) (p := 0) (b := i) (q := 1) (by omega)
      (by omega) (by omega) (by omega) (by omega) _ _ ?_
    intro M1 h1
    refine swapCell M1 (a := i + 64) (p := 2) (b := i) (q := 3) (by omega)
      (by omega) (by omega) (by omega) (by omega) _ _ ?_
    intro M2 h2
    refine swapCell M2 (a := i + 192) (p := 0) (b := i + 128) (q := 1) (by omega)
      (by omega) (by omega) (by omega) (by omega) _ _ ?_
    intro M3 h3
    refine swapCellEnd M3 (a := i + 192) (p := 2) (b := i + 128) (q := 3) (by omega)
      (by omega) (by omega) (by omega) (by omega) _ ?_
    intro M4 h4 r q hr hq
    by_cases e : r % 64 = i
    · rw [if_pos e]
      have d0 : i / 64 = 0 := Nat.div_eq_of_lt hi
      have d1 : (i + 64) / 64 = 1 := by omega
      have d2 : (i + 128) / 64 = 2 := by omega
      have d3 : (i + 192) / 64 = 3 := by omega
      have ⟨k0, k1, k2, k3⟩ : i < 256 ∧ i + 64 < 256 ∧ i + 128 < 256 ∧ i + 192 < 256 := by omega
      obtain rfl | rfl | rfl | rfl : r = i ∨ r = i + 64 ∨ r = i + 128 ∨ r = i + 192 := by omega
      all_goals
        obtain rfl | rfl | rfl | rfl : q = 0 ∨ q = 1 ∨ q = 2 ∨ q = 3 := by omega
      all_goals
        simp [sig, d0, d1, d2, d3, h4, h3, h2, h1, k0, k1, k2, k3]
    · rw [if_neg e, h4 _ _ hr hq, if_neg (by omega), if_neg (by omega), h3 _ _ hr hq,
        if_neg (by omega), if_neg (by omega), h2 _ _ hr hq, if_neg (by omega), if_neg (by omega),
        h1 _ _ hr hq, if_neg (by omega), if_neg (by omega)]
  intro A2 hA2
  have g2 := stageCell (t := 1) (by norm_num) (by omega) (inrange256 6 (by omega)) hA1 hA2
  refine Ok.bind (blockLoop (B := 128) (sig 2) ?_ _ ?_ ?_ A2) ?_
  · intro r q hr hq
    unfold sig
    split
    · simp; omega
    · split <;> simp <;> omega
  · intro r _; omega
  · intro i M hi
    refine swapCell M (a := i + 128) (p := 0) (b := i) (q := 2) (by omega)
      (by omega) (by omega) (by omega) (by omega) _ _ ?_
    intro M1 h1
    refine swapCellEnd M1 (a := i + 128) (p := 1) (b := i) (q := 3) (by omega)
      (by omega) (by omega) (by omega) (by omega) _ ?_
    intro M2 h2 r q hr hq
    by_cases e : r % 128 = i
    · rw [if_pos e]
      have d0 : i / 128 = 0 := Nat.div_eq_of_lt hi
      have d1 : (i + 128) / 128 = 1 := by omega
      have ⟨k0, k1⟩ : i < 256 ∧ i + 128 < 256 := by omega
      obtain rfl | rfl : r = i ∨ r = i + 128 := by omega
      all_goals
        obtain rfl | rfl | rfl | rfl : q = 0 ∨ q = 1 ∨ q = 2 ∨ q = 3 := by omega
      all_goals
        simp [sig, d0, d1, h2, h1, k0, k1]
    · rw [if_neg e, h2 _ _ hr hq, if_neg (by omega), if_neg (by omega), h1 _ _ hr hq,
        if_neg (by omega), if_neg (by omega)]
  intro A3 hA3
  have g3 := stageCell (t := 2) (by norm_num) (by omega) (inrange256 7 (by omega)) g2 hA3
  rw [copyM256_eq, Ok.ok_iff]
  exact transW_of_exch g3
''')
o.append('\nend WB\n')
open(os.path.join(D, 'TransAll.lean'), 'w').write(''.join(o))
o = ['''import Verif.Proof.Mul
import Verif.Proof.TransAll

/-!
# `MatMulVecM*`, `MatMulNumM*`, `MatMulMatM*` for every size (helper lemmas)

Written by `tools/gen_mul.py`.
-/
namespace WB
open Matrix

theorem mask4_and (x y : BitVec 8) :
    x &&& y &&& 0x0f = (x &&& 0x0f) &&& (y &&& 0x0f) := by
  ext i hi; simp; cases x[i] <;> cases y[i] <;> simp
theorem dot4 (x y : BitVec 8) :
    ((weight (x &&& y &&& 0x0f) : Nat) : ZMod 2) = ∑ j : Fin 4, bitF (bitS 4 x j) * bitF (bitS 4 y j) := by
  rw [mask4_and, dotS (n := 4) (by omega)]
  · refine Finset.sum_congr rfl fun j _ => ?_
    rw [bitS4_mask _ j.2, bitS4_mask _ j.2]
  · intro k hk
    rw [← mask4_and]; exact high4_mask _ k hk

theorem mulT {n : Nat} (A B T : Mat n) (hT : T = Bᵀ) (i j : Fin n) :
    ∑ k, A i k * T j k = (A * B) i j := by
  subst hT; rfl

/-- A product row computed word by word. -/
theorem andSet2 (t x y : Vector (BitVec 64) 2) : ∀ k (hk : k < 2),
    ((t.set 0 (x[0] &&& y[0])).set 1 (x[1] &&& y[1]))[k] = x[k] &&& y[k] := by
  intro k hk
  obtain rfl | rfl : k = 0 ∨ k = 1 := by omega
  all_goals simp

theorem andSet4 (t x y : Vector (BitVec 64) 4) : ∀ k (hk : k < 4),
    ((((t.set 0 (x[0] &&& y[0])).set 1 (x[1] &&& y[1])).set 2 (x[2] &&& y[2])).set 3
      (x[3] &&& y[3]))[k] = x[k] &&& y[k] := by
  intro k hk
  obtain rfl | rfl | rfl | rfl : k = 0 ∨ k = 1 ∨ k = 2 ∨ k = 3 := by omega
  all_goals simp

theorem initV128_eq (x : V128) : initV128 x = .ok (Vector.replicate 2 0) := by
  unfold initV128
  rw [wr_ok _ _ _ (by omega), C_pure_bind, wr_ok _ _ _ (by omega)]
  refine congrArg Except.ok (Vector.ext fun k hk => ?_)
  obtain rfl | rfl : k = 0 ∨ k = 1 := by omega
  all_goals simp

theorem initV256_eq (x : V256) : initV256 x = .ok (Vector.replicate 4 0) := by
  unfold initV256
  rw [wr_ok _ _ _ (by omega), C_pure_bind, wr_ok _ _ _ (by omega), C_pure_bind,
    wr_ok _ _ _ (by omega), C_pure_bind, wr_ok _ _ _ (by omega)]
  refine congrArg Except.ok (Vector.ext fun k hk => ?_)
  obtain rfl | rfl | rfl | rfl : k = 0 ∨ k = 1 ∨ k = 2 ∨ k = 3 := by omega
  all_goals simp
''']
for n, w in W.items():
    cl = 'clean4_of_bits h.2' if n == 4 else ''
    clean = ' ∧ Clean4 y' if n == 4 else ''
    cleanM = ' ∧ CleanM4 C' if n == 4 else ''
    mono = 'fun _ h => ⟨h.1, clean4_of_bits h.2⟩' if n == 4 else 'fun _ h => h.1'
    monoM = 'fun _ h => ⟨h.1, fun r => clean4_of_bits (h.2 r.val r.2)⟩' if n == 4 else 'fun _ h => h.1'
    dot = 'dot4 _ _' if n == 4 else 'dotS (n := %d) (by omega) _ _ (fun k hk => BitVec.getLsbD_of_ge _ _ hk)' % n
    msk = ' &&& 0x0f' if n == 4 else ''
    hyp = '(hB : CleanM4 B) ' if n == 4 else ''
    ab = ' hB' if n == 4 else ''
    for f, args, pre in (('Vec', ' y0', f'''  unfold MatMulVecM{n} initV{n}
  rw [pure_bind]
'''), ('Num', '', f'''  unfold MatMulNumM{n}
''')):
        ya = f' (y0 : V{n})' if f == 'Vec' else ''
        o.append(f'''
theorem MatMul{f}M{n}_ok (env : Env) (A : M{n}) (x : BitVec {w}){ya} :
    Ok (MatMul{f}M{n} env A x{args}) (fun y => vec{n} y = (mat{n} A).mulVec (vec{n} x){clean}) := by
{pre}  refine (mulVecS idOK{n} _ _ ?_).mono ({mono})
  intro i hi ans
  refine ⟨weight (A[i] &&& x{msk}), ?_, ?_⟩
  · rw [rd_ok _ _ hi, C_pure_bind, xorU{n}_eq, C_pure_bind]
  · exact {dot}
''')
    o.append(f'''
theorem MatMulMatM{n}_ok (env : Env) (A B C0 : M{n}) {hyp}:
    Ok (MatMulMatM{n} env A B C0) (fun C => mat{n} C = mat{n} A * mat{n} B{cleanM}) := by
  unfold MatMulMatM{n}
  rw [initM{n}_eq, C_pure_bind]
  refine Ok.bind (MattransM{n}_ok env B _{ab}) ?_
  {'rintro T ⟨hT, -⟩' if n == 4 else 'intro T hT'}
  refine (mulMatS idOK{n} _ _ ?_).mono
    ({monoM})
  intro i j hi hj M
  refine ⟨weight (A[i] &&& T[j]{msk}), ?_, ?_⟩
  · rw [rd_ok _ _ hi, C_pure_bind, rd_ok _ _ hj, C_pure_bind, xorU{n}_eq, C_pure_bind]
  · rw [← mulT _ _ _ hT]
    exact {dot}
''')
for n, l in L.items():
    rw = ', '.join(f'rd2_ok _ _ _ hj (by omega : {q} < {l}), C_pure_bind, rd_ok _ _ (by omega : {q} < {l}), C_pure_bind, wr_ok _ _ _ (by omega : {q} < {l}), C_pure_bind' for q in range(l))
    rw2 = ', '.join(f'rd2_ok _ _ _ hi (by omega : {q} < {l}), C_pure_bind, rd2_ok _ _ _ hj (by omega : {q} < {l}), C_pure_bind, wr_ok _ _ _ (by omega : {q} < {l}), C_pure_bind' for q in range(l))
    def zz(t, x, y):
        for q in range(l):
            t = f'({t}.set {q} ({x}[{q}] &&& {y}[{q}]))'
        return t
    o.append(f'''
{'set_option maxRecDepth 4000 in' if n == 256 else ''}
theorem MatMulVecM{n}_ok (env : Env) (A : M{n}) (x y0 : V{n}) :
    Ok (MatMulVecM{n} env A x y0) (fun y => vec{n} y = (mat{n} A).mulVec (vec{n} x)) := by
  unfold MatMulVecM{n}
  rw [initV{n}_eq, C_pure_bind]
  dsimp only
''')
    for p in range(l):
        rf = '; rfl' if p == 0 else ''
        hs = ('(by intro c; simp only [bitW, Nat.not_lt_zero, if_false, bitF_eq_zero]; by_cases h : c.val / 64 < %d <;> simp [h])' % l) if p == 0 else f'hs{p}'
        o.append(f'''  refine Ok.bind (mulVecW (l := {l}) (n := {n}) (p := {p}) (lo := {64*p}) (hi := {64*p+64}) (by norm_num) (by omega) (by norm_num) (by norm_num) _ ((mat{n} A).mulVec (vec{n} x)) ?_ {hs}) ?_
  · rintro j hj ⟨ans, t⟩
    refine ⟨weightV {zz('t', 'A[j]', 'x')}, {zz('t', 'A[j]', 'x')}, ?_, ?_⟩
    · dsimp only
      rw [{rw}, xorU{n}_eq, C_pure_bind]{rf}
    · exact dotW A[j] x _ (andSet{l} t _ _)
  intro s{p+1} hs{p+1}
''')
    o.append(f'''  rw [Ok.pure_iff]
  funext c
  exact (hs{l} c).trans (if_pos c.2)

theorem MatMulMatM{n}_ok (env : Env) (A B C0 : M{n}) :
    Ok (MatMulMatM{n} env A B C0) (fun C => mat{n} C = mat{n} A * mat{n} B) := by
  unfold MatMulMatM{n}
  rw [initM{n}_eq, C_pure_bind]
  refine Ok.bind (MattransM{n}_ok env B _) ?_
  intro T hT
  refine Ok.bind (mulMatOuter _ (mat{n} A * mat{n} B) ?_ _) ?_
  · intro i hi s0 h0
    have key : ∀ j (hj : j < {n}), ∑ c : Fin (64 * {l}), bitF (bitW A[i] c) * bitF (bitW T[j] c) =
        (mat{n} A * mat{n} B) ⟨i, hi⟩ ⟨j, hj⟩ := fun j hj => by
      rw [← mulT _ _ _ hT]; rfl
    generalize (mat{n} A * mat{n} B) = D at key
''')
    for p in range(l):
        last = p == l - 1
        rf = '; rfl' if p == 0 else ''
        hF = '(fun _ _ _ => rfl)' if p == 0 else f'hs{p}.1'
        hs = '(by intro c; simpa using h0 c)' if p == 0 else f'hs{p}.2'
        o.append(f'''    refine {'(' if last else 'Ok.bind ('}mulMatW (l := {l}) (n := {n}) (p := {p}) (M0 := s0.1) (lo := {64*p}) (up := {64*p+64}) (by norm_num) (by omega) (by norm_num) (by norm_num) hi _ (D ⟨i, hi⟩) ?_ {hF} {hs}){'.mono' if last else ''} ?_
    · rintro j hj ⟨ans, t⟩
      refine ⟨weightV {zz('t', 'A[i]', 'T[j]')}, {zz('t', 'A[i]', 'T[j]')}, ?_, ?_⟩
      · dsimp only
        rw [{rw2}, xorU{n}_eq, C_pure_bind]{rf}
      · exact (dotW A[i] T[j] _ (andSet{l} t _ _)).trans (key j hj)
    intro s{p+1} hs{p+1}
''')
    o.append(f'''    exact ⟨hs{l}.1, fun c => (hs{l}.2 c).trans (if_pos c.2)⟩
  · intro s hs
    rw [Ok.pure_iff]
    exact hs
''')
o.append('\nend WB\n')
open(os.path.join(D, 'MulAll.lean'), 'w').write(''.join(o))
