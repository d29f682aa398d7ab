#!/usr/bin/env python3
"""Generate lean/Verif/Proof/TriAll.lean and lean/Verif/Prop/C57.lean: reverse LU decomposition."""
SIZES = [4, 8, 16, 32, 64, 128, 256]
o = ['''import Verif.Proof.Tri
import Verif.Proof.ElimAll

/-!
# Random triangular matrices, all sizes

Generated by `tools/gen_c57.py`.
-/
namespace WB.rlud
open Matrix

theorem seeded_adv (w : World) (k : Nat) : (w.adv k).seeded = w.seeded := rfl

theorem OkM_of_eq {α : Type} {x y : CM α} {w w' : World} {Q : α → World → Prop} (h : x w = y w')
    (hy : OkM y w' Q) : OkM x w Q := by
  unfold OkM at hy ⊢
  rw [h]; exact hy
''']
def tri(n): return n * (n - 1) // 2

for n in SIZES:
    M = f'M{n}'; m = f'mat{n}'
    if n <= 64:
        bit = f'(bitS {n})'
        for nm, P, d, a, b, hD, cls, cnt in (
            ('low', 'fun r c => r ≤ c', 'fun i => i', 'Nat.zero_le _', 'by omega', 'fun c hc => ⟨trivial, Or.inr hc⟩', 'Lower', 'by rw [h.2, Nat.sub_zero]'),
            ('up', 'fun r c => c ≤ r', f'fun i => {n-1} - i', 'by omega', 'le_refl _', 'fun c hc => ⟨trivial, Or.inl (by omega)⟩', 'Upper', 'by rw [h.2]; congr 1; omega')):
            Pi = 'fun c => i ≤ c' if nm == 'low' else 'fun c => c ≤ i'
            o.append(f'''theorem {nm}{M}_ok (M : {M}) (w : World) (h : w.randseed ≠ 0x7fffffff#32) :
    OkM ({nm}{M} M) w (fun A w' => Unit{cls} ({m} A) ∧ w' = w.seeded.adv {tri(n)}) := by
  unfold {nm}{M}
  rw [OkM.bind_iff]
  refine OkM_reseedInt h ?_
  refine (rows_loop (bit := {bit}) ({P}) ({d}) (Nat.zero_le _) (le_refl _) ?_ M w.seeded
    (fun r _ h => absurd h (Nat.not_lt_zero r))).mono ?_
  · intro i M w _ hi
    rw [OkM.bind_iff, OkM.liftC_iff]
    refine (wr_row rident{n} hi (RowSt.start M i)).mono fun M1 h1 => ?_
    exact (flips_row rident{n} hi ({a}) ({b}) h1 (D' := {Pi}) ({hD}) w).mono
      fun _ _ h => ⟨h.1, {cnt}⟩
  · rintro A w' ⟨hA, rfl⟩
    exact ⟨{cls.lower()}_of hA, congrArg w.seeded.adv (by decide +kernel)⟩
''')
        if n == 4:
            o.append('''theorem upM4_clean (M : M4) (w : World) (h : w.randseed ≠ 0x7fffffff#32) :
    OkM (upM4 M) w (fun A _ => CleanM4 A) := by
  have hid : ∀ j (hj : j < 4), Clean4 identM4[j] := by unfold Clean4; decide
  unfold upM4
  rw [OkM.bind_iff]
  refine OkM_reseedInt h ?_
  refine OkM.forUp (fun i A _ => ∀ r (hr : r < 4), r < i → Clean4 A[r]) (Nat.zero_le _)
    (fun r _ h => absurd h (Nat.not_lt_zero r)) ?_ (fun A _ h i => h i i.2 i.2)
  rintro i A w - hi hA
  rw [OkM.bind_iff, OkM.liftC_iff, rd_ok _ _ hi, C_pure_bind, wr_ok _ _ _ hi, Ok.ok_iff]
  refine OkM.forUp (fun _ A _ => ∀ r (hr : r < 4), r < i + 1 → Clean4 A[r]) (by omega) ?_ ?_
    (fun A _ h => h)
  · intro r hr hlt
    rw [Vector.getElem_set]
    split
    · exact hid i hi
    · exact hA r hr (by omega)
  · intro j A w _ hj hA
    unfold flip
    rw [OkM.bind_iff]
    refine OkM_draw ?_
    rw [OkM.liftC_iff, umod_two, C_pure_bind, Ok.ite_iff]
    refine ⟨fun _ => ?_, fun _ => (Ok.pure_iff _ _).2 hA⟩
    rw [rd_ok _ _ hi, C_pure_bind, rd_ok _ _ hj, C_pure_bind, wr_ok _ _ _ hi, Ok.ok_iff]
    intro r hr hlt
    rw [Vector.getElem_set]
    split
    · exact (hA i hi (by omega)).xor (hid j hj)
    · exact hA r hr hlt
''')
        continue
    l = n // 64
    # low
    o.append(f'''theorem low{M}_ok (M : {M}) (w : World) (h : w.randseed ≠ 0x7fffffff#32) :
    OkM (low{M} M) w (fun A w' => UnitLower ({m} A) ∧ w' = w.seeded.adv {tri(n)}) := by
  unfold low{M}
  rw [OkM.bind_iff]
  refine OkM_reseedInt h ?_''')
    for q in range(l):
        fin = q == l - 1
        Mq = 'M' if q == 0 else f'A{q-1}'
        wq = 'w.seeded' if q == 0 else '_'
        h0 = '(fun r _ h => absurd h (Nat.not_lt_zero r))' if q == 0 else f'hA{q-1}'
        call = f'''(rows_loop (bit := bitW) (fun r c => r ≤ c) (fun i => i) (lo := {64*q}) (hi := {64*(q+1)}) (by norm_num)
    (by norm_num) ?_ {Mq} {wq} {h0})'''
        if fin: o.append(f'  refine {call}.mono ?_')
        else: o.append(f'  rw [OkM.bind_iff]\n  refine {call}.mono ?_')
        steps = []
        sub = 'fun j => j' if q == 0 else f'fun j => j - {64*q}'
        steps.append(f'''  · intro i M w hlo hhi
    refine OkM.bind (one_row (k := {q}) (by norm_num) (by omega) (by norm_num) (by omega) (by omega) (RowSt.start M i)
      (D' := fun c => {64*q} ≤ c ∧ c < {64*(q+1)}) (fun c hc => by omega) _) ?_
    rintro N _ ⟨g, rfl⟩''')
        ops = [('f', q)] + ([('f', k) for k in range(q - 1, -1, -1)]) + [('z', k) for k in range(q + 1, l)]
        D = f'i ≤ c ∧ c < {64*(q+1)}'
        g = 'g'
        for t, (kind, k) in enumerate(ops):
            lastop = t == len(ops) - 1
            if kind == 'f':
                a, b = (64*q, 'i') if k == q else (64*k, 64*k+64)
                sub = 'fun j => j' if k == 0 else f'fun j => j - {64*k}'
                e = f'''(flips2_row (k := {k}) (by norm_num) ({sub}) (by omega) (by norm_num) (by omega) (by intros; omega) {g}
      (D' := fun c => {D if not (lastop and fin) else 'i ≤ c'}) (fun c hc => DSIDE) _)'''
                if lastop and fin:
                    e = f'''(flips2_row (k := {k}) (by norm_num) ({sub}) (by omega) (by norm_num) (by omega) (by intros; omega) ({g}.weaken (D' := fun c => i ≤ c ∧ c < {n}) (fun c hc => by omega))
      (D' := fun c => i ≤ c ∧ c < {n}) (fun c hc => ⟨by omega, by intros; omega⟩) _)'''
                else:
                    e = e.replace('DSIDE', '⟨by omega, by intros; omega⟩').replace("w'", '_')
            else:
                D = f'i ≤ c ∧ c < {64*(k+1)}'
                e = f'''(zero_row (k := {k}) (by norm_num) (by omega) (by norm_num) (by omega) {g} (D' := fun c => {D})
      (fun c hc => by omega) _)'''
            if not lastop:
                steps.append(f'    refine OkM.bind {e} ?_\n    rintro N{t} _ ⟨g{t}, rfl⟩')
                g = f'g{t}'
            else:
                steps.append(f'''    refine {e}.mono ?_
    rintro A _ ⟨h1, h2⟩
    refine ⟨⟨h1.above, fun hi c hc hd => h1.row hi c hc ⟨hd, hc⟩⟩, ?_⟩
    rw [h2]
    try simp only [adv_adv]
    congr 1
    all_goals omega''')
        o += steps
        if fin:
            o.append(f'''  · rintro A{q} w' ⟨hA{q}, rfl⟩
    refine ⟨lower_of hA{q}, ?_⟩
    simp only [adv_adv]
    exact congrArg w.seeded.adv (by decide +kernel)
''')
        else:
            o.append(f'  rintro A{q} _ ⟨hA{q}, rfl⟩')
    # up
    rows = ' .flat' if n == 256 else ''
    extra = ' ∧ (∀ i j : Fin 256, 192 ≤ i.val → mat256 A i j = if i = j then 1 else 0)' if n == 256 else ''
    P = 'fun r c => c ≤ r ∨ 192 ≤ r' if n == 256 else 'fun r c => c ≤ r'
    def upblocks(upto, strict=False):
        for q in range(upto):
            Mq = 'M' if q == 0 else f'A{q-1}'
            wq = 'w.seeded' if q == 0 else '_'
            h0 = '(fun r _ h => absurd h (Nat.not_lt_zero r))' if q == 0 else f'hA{q-1}'
            fin = q == l - 1
            call = f'''(rows_loop (bit := bitW) ({P}) (fun i => {n-1} - i) (lo := {64*q}) (hi := {64*(q+1)}) (by norm_num)
    (by norm_num) ?_ {Mq} {wq} {h0})'''
            o.append(f'  refine {call}.mono ?_' if fin else (f'  refine GuardedAt.pre {call} ?_' if strict else f'  rw [OkM.bind_iff]\n  refine {call}.mono ?_'))
            o.append('  · intro i M w hlo hhi')
            g = '(RowSt.start M i)'
            ops = []
            if n == 256: ops += [('z', k) for k in range(q)]
            ops += [('o', q), ('f', q)] + [('f', k) for k in range(q + 1, l)]
            if n == 128 and q == 1: ops.append(('z', 0))
            if n == 256 and q == 3: ops = [x for x in ops if x[0] != 'f'] + [('x', 3)]
            for t, (kind, k) in enumerate(ops):
                lastop = t == len(ops) - 1
                if kind == 'z':
                    D = f'c < {64*(k+1)}' if n == 256 else 'c ≤ i'
                    e = f'''(zero_row (k := {k}) (by norm_num) (by omega) (by norm_num) (by omega) {g} (D' := fun c => {D})
      (fun c hc => {'Or.inl (by omega)' if t == 0 else 'by omega'}) _)'''
                elif kind == 'o':
                    D = f'{0 if n == 256 else 64*q} ≤ c ∧ c < {64*(q+1)}'
                    e = f'''(one_row (k := {k}) (by norm_num) (by omega) (by norm_num) (by omega) (by omega) {g}
      (D' := fun c => {D}) (fun c hc => by omega) _)'''
                elif kind == 'f':
                    D = 'c ≤ i' if (n == 256 or q == 0) else f'{64*q} ≤ c ∧ c ≤ i'
                    if n == 128 and k > q:
                        a, sub = 0, 'fun j => j'
                    else:
                        sub = 'fun j => j' if k == 0 else f'fun j => j - {64*k}'
                    e = f'''(flips2_row (k := {k}) (by norm_num) ({sub}) (by omega) (by norm_num) (by omega) (by intros; omega) {g}
      (D' := fun c => {D}) (fun c hc => ⟨by omega, by intros; omega⟩) _)'''
                else:
                    e = f'''(flips_next (by omega) {g} _)'''
                if not lastop:
                    o.append(f'    refine OkM.bind {e} ?_\n    rintro N{t} _ ⟨g{t}, rfl⟩')
                    g = f'g{t}'
                else:
                    o.append(f'''    refine {e}.mono ?_
    rintro A _ ⟨h1, h2⟩
    refine ⟨h1.weaken (fun c hc => by omega), ?_⟩
    rw [h2]
    try simp only [adv_adv]
    congr 1
    all_goals omega''' if not (n == 256 and q == 3) else '''    refine %s.mono ?_
    rintro A _ ⟨h1, h2⟩
    refine ⟨⟨h1.above, fun hi c hc _ => h1.row hi c hc (by omega)⟩, h2⟩''' % e)
            if not fin: o.append(f'  rintro A{q} _ ⟨hA{q}, rfl⟩')
    if n == 256:
        o.append('''/-- The flips of line 347 on a machine where the rows follow each other: they hit the next row. -/
theorem flips_next {M0 M : M256} {i : Nat} (hi : 192 ≤ i ∧ i < 256) {D : Nat → Prop}
    (h : RowSt 256 bitW M0 i D M) (w0 : World) :
    OkM (forUp (i + 1) 256 M fun j M => flip2X .flat M i 4 identM64 (j - 192)) w0
      (fun M' w' => RowSt 256 bitW M0 i D M' ∧ w' = w0.adv (255 - i)) := by
  refine OkM.forUp (fun j M' w' => RowSt 256 bitW M0 i D M' ∧ w' = w0.adv (j - (i + 1))) (by omega)
    ⟨h, by rw [Nat.sub_self, adv_zero]⟩ ?_ ?_
  · rintro j M1 w1 hj1 hj2 ⟨h1, rfl⟩
    show OkM (flip2 M1 (i + 4 / 4) (4 % 4) identM64 (j - 192)) _ _
    unfold flip2
    rw [OkM.bind_iff]
    refine OkM_draw ?_
    have hw : ((w0.adv (j - (i + 1))).adv 1) = w0.adv (j + 1 - (i + 1)) := by
      rw [adv_adv]; congr 1; omega
    rw [OkM.liftC_iff, umod_two, C_pure_bind, Ok.ite_iff]
    refine ⟨fun _ => ?_, fun _ => (Ok.pure_iff _ _).2 ⟨h1, hw⟩⟩
    have hi1 : i + 4 / 4 < 256 := by omega
    rw [rd2_ok _ _ _ hi1 (by norm_num), C_pure_bind, rd_ok _ _ (by omega), C_pure_bind,
      wr2_ok _ _ _ _ hi1 (by norm_num), Ok.ok_iff]
    refine ⟨⟨fun r hr hlt => ?_, fun hi' c hc hd => ?_⟩, hw⟩
    · rw [Vector.getElem_set_ne _ _ (by omega)]; exact h1.above r hr hlt
    · rw [Vector.getElem_set_ne _ _ (by omega)]; exact h1.row hi' c hc hd
  · rintro M' w' ⟨h1, h2⟩
    exact ⟨h1, by rw [h2]; congr 1; omega⟩
''')
    o.append(f'''theorem up{M}_ok (M : {M}) (w : World) (h : w.randseed ≠ 0x7fffffff#32) :
    OkM (up{M}{rows} M) w (fun A w' => UnitUpper ({m} A){extra} ∧ w' = w.seeded.adv {tri(n)}) := by
  unfold up{M}
  rw [OkM.bind_iff]
  refine OkM_reseedInt h ?_''')
    upblocks(l)
    o.append(f'''  · rintro A{l-1} w' ⟨hA{l-1}, rfl⟩
    refine ⟨upper_of fun r hr h c hc hle => hA{l-1} r hr h c hc {'(Or.inl hle)' if n == 256 else 'hle'}, {'?_, ' if n == 256 else ''}?_⟩''')
    if n == 256:
        o.append('''    · intro i j hi
      simp only [matOf, Fin.getElem_fin]
      rw [hA3 i i.2 i.2 j j.2 (Or.inr hi)]
      by_cases e : i = j
      · subst e; simp [bitF]
      · rw [if_neg e]
        have : j.val ≠ i.val := fun e' => e (Fin.ext e'.symm)
        simp [bitF, this]''')
    o.append(f'''    simp only [adv_adv]
    exact congrArg w.seeded.adv (by decide +kernel)
''')
    if n == 256:
        # strict
        o.append('''/-! ## Line 347 as ISO C reads it -/

/-- The `k`-th next draw is odd. -/
def OddDraw (w : World) (k : Nat) : Prop := (w.draw k).toNat % 2 = 1

instance (w : World) (k : Nat) : Decidable (OddDraw w k) := inferInstanceAs (Decidable (_ = _))

theorem odd_adv (w : World) (a k : Nat) : OddDraw (w.adv a) k ↔ OddDraw w (a + k) := by
  unfold OddDraw; rw [draw_adv]

/-- `x` makes `d` draws and faults at the first odd one. -/
def Guarded {α : Type} (d : Nat) (x : CM α) (w : World) (Q : α → Prop) : Prop :=
  ((∃ k, k < d ∧ OddDraw w k) → x w = .error .oob) ∧
  ((∀ k, k < d → ¬ OddDraw w k) → ∃ a, x w = .ok (a, w.adv d) ∧ Q a)

theorem guarded_flip {M : M256} {i j : Nat} (w : World) :
    Guarded 1 (flip2 M i 4 identM64 j) w (fun M' => M' = M) := by
  have hrun : flip2 M i 4 identM64 j w = if OddDraw w 0 then .error .oob else .ok (M, w.adv 1) := by
    unfold flip2
    rw [CM_bind_run (cus_random_run' w), umod_two, C_pure_bind]
    have hiff : ((w.draw 0).umod 2 != 0) = true ↔ OddDraw w 0 := by
      unfold OddDraw
      rw [bne_iff_ne, ne_eq, ← BitVec.toNat_inj, BitVec.umod_eq, BitVec.toNat_umod]
      show ¬ ((w.draw 0).toNat % 2 = 0) ↔ _
      omega
    by_cases h : OddDraw w 0
    · rw [if_pos h, if_pos (hiff.2 h)]
      have : rd2 M i 4 = .error .oob := by
        unfold rd2
        by_cases hi : i < 256
        · rw [rd_ok _ _ hi]; rfl
        · unfold rd; rw [dif_neg hi]; rfl
      rw [this]
      rfl
    · rw [if_neg h, if_neg (fun e => h (hiff.1 e))]
      rfl
  constructor
  · rintro ⟨k, hk, ho⟩
    obtain rfl : k = 0 := by omega
    rw [hrun, if_pos ho]
  · intro h
    exact ⟨M, by rw [hrun, if_neg (h 0 (by omega))], rfl⟩

theorem Guarded.bind {α β : Type} {d e : Nat} {x : CM α} {f : α → CM β} {w : World} {P : α → Prop}
    {Q : β → Prop} (h : Guarded d x w P) (hf : ∀ a, P a → Guarded e (f a) (w.adv d) Q) :
    Guarded (d + e) (x >>= f) w Q := by
  classical
  by_cases h1 : ∃ k, k < d ∧ OddDraw w k
  · refine ⟨fun _ => CM_bind_error (h.1 h1), fun hn => ?_⟩
    obtain ⟨k, hk, ho⟩ := h1
    exact absurd ho (hn k (by omega))
  · have h1' : ∀ k, k < d → ¬ OddDraw w k := fun k hk ho => h1 ⟨k, hk, ho⟩
    obtain ⟨a, ha, hP⟩ := h.2 h1'
    refine ⟨?_, ?_⟩
    · rintro ⟨k, hk, ho⟩
      rw [CM_bind_run ha]
      have hkd : d ≤ k := by
        by_contra hlt
        exact h1' k (by omega) ho
      refine (hf a hP).1 ⟨k - d, by omega, ?_⟩
      rw [odd_adv, show d + (k - d) = k by omega]
      exact ho
    · intro hn
      rw [CM_bind_run ha]
      obtain ⟨b, hb, hQ⟩ := (hf a hP).2 (fun k hk => by rw [odd_adv]; exact hn _ (by omega))
      exact ⟨b, by rw [hb, adv_adv], hQ⟩

theorem Guarded.pre {α β : Type} {e : Nat} {x : CM α} {f : α → CM β} {w : World} {P : α → Prop}
    {Q : β → Prop} (h : OkM x w (fun a w' => P a ∧ w' = w)) (hf : ∀ a, P a → Guarded e (f a) w Q) :
    Guarded e (x >>= f) w Q := by
  obtain ⟨⟨a, w'⟩, ha, hP, hw⟩ := h
  simp only at hw hP
  rw [hw] at ha
  refine ⟨fun h => ?_, fun h => ?_⟩
  · rw [CM_bind_run ha]; exact (hf a hP).1 h
  · rw [CM_bind_run ha]; exact (hf a hP).2 h

theorem Guarded.mono {α : Type} {d : Nat} {x : CM α} {w : World} {P Q : α → Prop}
    (h : Guarded d x w P) (hq : ∀ a, P a → Q a) : Guarded d x w Q :=
  ⟨h.1, fun hn => let ⟨a, ha, hP⟩ := h.2 hn; ⟨a, ha, hq a hP⟩⟩

theorem guarded_foldl {σ : Type} {f : Nat → σ → CM σ} (d : Nat → Nat) (I : Nat → σ → Prop) :
    ∀ (len lo : Nat) (s : σ) (w : World), I lo s →
    (∀ i s w, lo ≤ i → i < lo + len → I i s → Guarded (d i) (f i s) w (I (i + 1))) →
    Guarded (∑ i ∈ Finset.Ico lo (lo + len), d i) ((List.range' lo len).foldlM (fun s i => f i s) s) w
      (I (lo + len)) := by
  intro len
  induction len with
  | zero =>
    intro lo s w h0 _
    rw [Nat.add_zero, Finset.Ico_self, Finset.sum_empty]
    refine ⟨fun ⟨k, hk, _⟩ => absurd hk (Nat.not_lt_zero k), fun _ => ⟨s, ?_, h0⟩⟩
    rw [adv_zero]; rfl
  | succ len ih =>
    intro lo s w h0 hs
    rw [List.range'_succ, List.foldlM_cons, Finset.sum_eq_sum_Ico_succ_bot (by omega),
      show lo + (len + 1) = lo + 1 + len by omega]
    refine Guarded.bind (hs lo s w (le_refl _) (by omega) h0) ?_
    intro s' h'
    exact ih (lo + 1) s' _ h' (fun i s w h1 h2 hp => hs i s w (by omega) (by omega) hp)

theorem Guarded.forUp {σ : Type} {lo hi : Nat} {s : σ} {w : World} {f : Nat → σ → CM σ} (d : Nat → Nat)
    (I : Nat → σ → Prop) (hle : lo ≤ hi) (h0 : I lo s)
    (hs : ∀ i s w, lo ≤ i → i < hi → I i s → Guarded (d i) (f i s) w (I (i + 1))) :
    Guarded (∑ i ∈ Finset.Ico lo hi, d i) (WB.forUp lo hi s f) w (I hi) := by
  have := guarded_foldl d I (hi - lo) lo s w h0 (fun i s w h1 h2 hp => hs i s w h1 (by omega) hp)
  rw [show lo + (hi - lo) = hi by omega] at this
  exact this
''')
        o.append('''/-- `Guarded` with the draws counted from an earlier point. -/
def GuardedAt {α : Type} (w0 : World) (a d : Nat) (x : CM α) (w : World) (Q : α → Prop) : Prop :=
  ((∃ k, k < d ∧ OddDraw w0 (a + k)) → x w = .error .oob) ∧
  ((∀ k, k < d → ¬ OddDraw w0 (a + k)) → ∃ r, x w = .ok (r, w0.adv (a + d)) ∧ Q r)

theorem GuardedAt.pre {α β : Type} {w0 : World} {a d : Nat} {x : CM α} {f : α → CM β} {w : World}
    {P : α → World → Prop} {Q : β → Prop} (h : OkM x w P)
    (hf : ∀ r w', P r w' → GuardedAt w0 a d (f r) w' Q) : GuardedAt w0 a d (x >>= f) w Q := by
  obtain ⟨⟨r, w'⟩, hr, hP⟩ := h
  have := hf r w' hP
  unfold GuardedAt at this ⊢
  rw [CM_bind_run hr]
  exact this

theorem Guarded.at {α : Type} {w0 : World} {a d : Nat} {x : CM α} {Q : α → Prop}
    (h : Guarded d x (w0.adv a) Q) : GuardedAt w0 a d x (w0.adv a) Q := by
  unfold Guarded at h
  simp only [odd_adv, adv_adv] at h
  exact h

theorem upM256_strict (M : M256) (w : World) (h : w.randseed ≠ 0x7fffffff#32) :
    GuardedAt w.seeded 30624 2016 (upM256 .strict M) w (fun A => UnitUpper (mat256 A) ∧
        ∀ i j : Fin 256, 192 ≤ i.val → mat256 A i j = if i = j then 1 else 0) := by
  unfold upM256
  refine GuardedAt.pre (OkM_reseedInt (Q := fun _ w' => w' = w.seeded) h rfl) ?_
  rintro _ _ rfl''')
        upblocks(3, True)
        o.append('''  simp only [adv_adv]
  rw [show (∑ i ∈ Finset.Ico 0 64, (255 - i)) + (∑ i ∈ Finset.Ico 64 128, (255 - i)) +
    ∑ i ∈ Finset.Ico 128 192, (255 - i) = 30624 from by decide +kernel]
  refine Guarded.at ?_
  have hs : (∑ i ∈ Finset.Ico 192 256, (255 - i)) = 2016 := by decide +kernel
  rw [← hs]
  refine (Guarded.forUp (fun i => 255 - i) (fun i A => ∀ r (hr : r < 256), r < i → ∀ c, c < 256 →
    (c ≤ r ∨ 192 ≤ r) → bitW A[r] c = decide (c = r)) (by norm_num) hA2 ?_).mono ?_
  · intro i M w hlo hhi hM
    refine Guarded.pre (zero_row (k := 0) (by norm_num) (by omega) (by norm_num) (by omega) (RowSt.start M i)
      (D' := fun c => c < 64) (fun c hc => Or.inl (by omega)) _) ?_
    intro N0 g0
    refine Guarded.pre (zero_row (k := 1) (by norm_num) (by omega) (by norm_num) (by omega) g0
      (D' := fun c => c < 128) (fun c hc => by omega) _) ?_
    intro N1 g1
    refine Guarded.pre (zero_row (k := 2) (by norm_num) (by omega) (by norm_num) (by omega) g1
      (D' := fun c => c < 192) (fun c hc => by omega) _) ?_
    intro N2 g2
    refine Guarded.pre (one_row (k := 3) (by norm_num) (by omega) (by norm_num) (by omega) (by omega) g2
      (D' := fun c => 0 ≤ c ∧ c < 256) (fun c hc => by omega) _) ?_
    intro N3 g3
    have := Guarded.forUp (w := w) (fun _ => 1) (fun _ A => A = N3) (show i + 1 ≤ 256 by omega) rfl
      (f := fun j Mat => flip2X .strict Mat i 4 identM64 (j - 192))
      (fun j A w _ _ hA => hA ▸ guarded_flip w)
    rw [Finset.sum_const, Nat.card_Ico, smul_eq_mul, mul_one, show 256 - (i + 1) = 255 - i by omega] at this
    refine this.mono ?_
    rintro A rfl r hr hlt c hc hd
    by_cases e : r = i
    · subst e
      exact g3.row hr c hc ⟨Nat.zero_le _, hc⟩
    · rw [g3.above r hr (by omega)]
      exact hM r hr (by omega) c hc hd
  · intro A hA
    refine ⟨upper_of fun r hr h c hc hle => hA r hr h c hc (Or.inl hle), ?_⟩
    intro i j hi
    simp only [matOf, Fin.getElem_fin]
    rw [hA i i.2 i.2 j j.2 (Or.inr hi)]
    by_cases e : i = j
    · subst e; simp [bitF]
    · rw [if_neg e]
      have : j.val ≠ i.val := fun e' => e (Fin.ext e'.symm)
      simp [bitF, this]
''')
o.append('end WB.rlud\n')
open('/verif/lean/Verif/Proof/TriAll.lean', 'w').write('\n'.join(o))

o = ['''import Verif.Proof.TriAll
import Verif.Model.RLUD
import Verif.Prop.C13

/-!
# C57 — the matrices made by reverse LU decomposition are invertible

`/repo/test/RLUDMethod_test.c`.  Generated by `tools/gen_c57.py`.
-/
namespace WB
open Matrix
open rlud (OddDraw)
''']
for n in SIZES:
    M = f'M{n}'; m = f'mat{n}'
    cl = n == 4
    if n <= 64:
        ops = f'opsS_ok4 idM4 idOK4' if cl else f'opsS_ok idM{n} idOK{n}'
        G = 'CleanM4' if cl else 'fun _ => True'
        bit = f'(matOf {n} (bitS {n}))'
        swp = '(swapRow · · ·)'
    else:
        l = n // 64
        ks = '[' + ', '.join(map(str, range(l))) + ']'
        ops = f'opsW{n}_0'
        G = 'fun _ => True'
        bit = f'(matOf {n} bitW)'
        swp = f'(swapWords {ks} · · ·)'
    junk = f'(env.junkArr {max(n,8)} {n})' if n <= 64 else f'(env.junkArr2 64 {l} {n})'
    flat = ' .flat' if n == 256 else ''
    o.append(f'''/-- C57: `low{M}` stores a unit lower triangular matrix, whatever the destination held. -/
theorem C57_low{M} (Mat : {M}) (w : World) (h : w.randseed ≠ 0x7fffffff#32) :
    ∃ A w', rlud.low{M} Mat w = .ok (A, w') ∧ (∀ i, {m} A i i = 1) ∧ (∀ i j, i < j → {m} A i j = 0) := by
  obtain ⟨⟨A, w'⟩, hA, ⟨h1, h2⟩, -⟩ := rlud.low{M}_ok Mat w h
  exact ⟨A, w', hA, h1, h2⟩
''')
    if n < 256:
        o.append(f'''/-- C57: `up{M}` stores a unit upper triangular matrix, whatever the destination held. -/
theorem C57_up{M} (Mat : {M}) (w : World) (h : w.randseed ≠ 0x7fffffff#32) :
    ∃ A w', rlud.up{M} Mat w = .ok (A, w') ∧ (∀ i, {m} A i i = 1) ∧ (∀ i j, j < i → {m} A i j = 0) := by
  obtain ⟨⟨A, w'⟩, hA, ⟨h1, h2⟩, -⟩ := rlud.up{M}_ok Mat w h
  exact ⟨A, w', hA, h1, h2⟩
''')
    else:
        o.append('''/-- C57: `upM256` as ISO C reads it: it indexes past the end of a row exactly if one of its last 2016
draws is odd, and otherwise stores a unit upper triangular matrix whose last 64 rows are those of the
identity. -/
theorem C57_upM256_partial (Mat : M256) (w : World) (h : w.randseed ≠ 0x7fffffff#32) :
    ((∃ k, k < 2016 ∧ OddDraw w.seeded (30624 + k)) ∧ rlud.upM256 .strict Mat w = .error .oob) ∨
    ((∀ k, k < 2016 → ¬ OddDraw w.seeded (30624 + k)) ∧
      ∃ A w', rlud.upM256 .strict Mat w = .ok (A, w') ∧ (∀ i, mat256 A i i = 1) ∧
        (∀ i j, j < i → mat256 A i j = 0) ∧
        ∀ i j : Fin 256, 192 ≤ i.val → mat256 A i j = if i = j then 1 else 0) := by
  classical
  by_cases ho : ∃ k, k < 2016 ∧ OddDraw w.seeded (30624 + k)
  · exact Or.inl ⟨ho, (rlud.upM256_strict Mat w h).1 ho⟩
  · have hn : ∀ k, k < 2016 → ¬ OddDraw w.seeded (30624 + k) := fun k hk h' => ho ⟨k, hk, h'⟩
    obtain ⟨A, hA, ⟨h1, h2⟩, h3⟩ := (rlud.upM256_strict Mat w h).2 hn
    exact Or.inr ⟨hn, A, _, hA, h1, h2, h3⟩

/-- C57: the rows of a matrix follow each other in memory.  If the access past the end of a row reaches the
next row, `upM256` stores a unit upper triangular matrix whose last 64 rows are those of the identity. -/
theorem C57_upM256_flat_partial (Mat : M256) (w : World) (h : w.randseed ≠ 0x7fffffff#32) :
    ∃ A w', rlud.upM256 .flat Mat w = .ok (A, w') ∧ (∀ i, mat256 A i i = 1) ∧
      (∀ i j, j < i → mat256 A i j = 0) ∧
      ∀ i j : Fin 256, 192 ≤ i.val → mat256 A i j = if i = j then 1 else 0 := by
  obtain ⟨⟨A, w'⟩, hA, ⟨h1, h2⟩, h3, -⟩ := rlud.upM256_ok Mat w h
  exact ⟨A, w', hA, h1, h2, h3⟩

/-- C57: `upM256` does index past the end of a row, for instance with seed 0. -/
theorem C57_upM256_violated : ∃ w : World, w.randseed = 0 ∧
    ∀ Mat, rlud.upM256 .strict Mat w = .error .oob :=
  ⟨{ exWorld with randseed := 0 }, rfl, fun Mat => (rlud.upM256_strict Mat _ (by decide)).1
    ⟨KUP, by norm_num, by decide +kernel⟩⟩
''')
    hyps = '''(h : w.randseed < 0x7ffffffd#32 ∨ 0x7fffffff#32 < w.randseed)'''
    seps = '''  have h0 : w.randseed ≠ 0x7fffffff#32 := by bv_omega
  have h1 : w.seeded.randseed ≠ 0x7fffffff#32 := by
    show w.randseed + 1#32 ≠ _
    bv_omega
  have h2 : (w.seeded.seeded.adv %d).randseed ≠ 0x7fffffff#32 := by
    show w.randseed + 1#32 + 1#32 ≠ _
    bv_omega
''' % tri(n)
    extra = ' ∧ CleanM4 A' if cl else ''
    tail_hyp = '' if n < 256 else ''
    if cl:
        mul = f'''  obtain ⟨⟨U, w2⟩, hU0, hU, hw2⟩ := rlud.up{M}_ok (env.junkArr 8 4) _ h2
  have hcl : CleanM4 U := by
    obtain ⟨⟨U', w3⟩, hU1, h3⟩ := rlud.upM4_clean (env.junkArr 8 4) _ h2
    rw [hU0] at hU1
    cases hU1
    exact h3
  rw [OkM.bind_iff]
  refine (show OkM _ _ _ from ⟨⟨U, w2⟩, hU0, ?_⟩)
  simp only
  rw [OkM.bind_iff, OkM.liftC_iff]
  refine (MatMulMatM4_ok env L U _ hcl).mono ?_
  rintro P ⟨hP, hPc⟩'''
        fin = '⟨(hA.trans hd), hG hPc, ?_⟩'
    else:
        pat = '⟨hU, -, rfl⟩' if n == 256 else '⟨hU, rfl⟩'
        mul = f'''  rw [OkM.bind_iff]
  refine (rlud.up{M}_ok _ _ h2).mono ?_
  rintro U _ {pat}
  rw [OkM.bind_iff, OkM.liftC_iff]
  refine (MatMulMat{M}_ok env L U _).mono ?_
  intro P hP'''
        fin = '⟨(hA.trans hd), ?_⟩'
    rseed = 'obtain ⟨k, rfl⟩ := hw'
    o.append(f'''theorem rludInvTMat{M}_ok (env : Env) (Mat : {M}) (w : World) {hyps} :
    OkM (rlud.InvTMat{M} env{flat} Mat) w (fun A w' => ({m} A).det = 1{extra} ∧ w'.randseed = w.randseed + 3#32) := by
{seps}  unfold rlud.InvTMat{M}
  rw [OkM.bind_iff]
  refine OkM_reseedInt h0 ?_
  rw [OkM.bind_iff]
  refine (rlud.low{M}_ok _ _ h1).mono ?_
  rintro L _ ⟨hL, rfl⟩
{mul}
  have hd : ({m} P).det = 1 := by rw [hP, det_mul, hL.det, hU.det, one_mul]
  rw [OkM.bind_iff]
  refine (exchange_loop (N := {n-1}) (by norm_num) {bit} ({G}) {swp} ({ops}).swpF P _).mono ?_
  rintro A w' ⟨hA, hG, k, rfl⟩
  rw [OkM.liftC_iff, copy{M}_eq, Ok.ok_iff]
  refine {fin}
  {'subst hw2' if cl else 'skip'}
  show w.randseed + 1#32 + 1#32 + 1#32 = _
  rw [BitVec.add_assoc, BitVec.add_assoc]
  rfl
''')
    if n < 256:
        o.append(f'''/-- C57: `InvTMat{M}` stores an invertible matrix, whatever its local arrays and the destination held, the
seed and the clock; `invs{M}` then stores its inverse. -/
theorem C57_InvTMat{M} (env : Env) (Mat B0 : {M}) (w : World)
    {hyps} :
    ∃ A B w', rlud.InvTMat{M} env Mat w = .ok (A, w') ∧ invs{M} A B0 = .ok B ∧
      {m} A * {m} B = 1 ∧ {m} B * {m} A = 1{extra} ∧ w'.randseed = w.randseed + 3 := by
  obtain ⟨⟨A, w'⟩, hA, hd, {'hcl, ' if cl else ''}hw⟩ := rludInvTMat{M}_ok env Mat w h
  obtain ⟨B, hB, hAB, hBA{', -' if cl else ''}⟩ := C13_invs{M} A B0 ((isUnit_iff_det _).2 hd)
  exact ⟨A, B, _, hA, hB, hAB, hBA, {'hcl, ' if cl else ''}hw⟩
''')
    else:
        o.append(f'''/-- C57: on a machine where the access past the end of a row reaches the next row, `InvTMatM256` stores an
invertible matrix, and `invsM256` its inverse. -/
theorem C57_InvTMatM256_flat_partial (env : Env) (Mat B0 : M256) (w : World)
    {hyps} :
    ∃ A B w', rlud.InvTMatM256 env .flat Mat w = .ok (A, w') ∧ invsM256 A B0 = .ok B ∧
      mat256 A * mat256 B = 1 ∧ mat256 B * mat256 A = 1 ∧ w'.randseed = w.randseed + 3 := by
  obtain ⟨⟨A, w'⟩, hA, hd, hw⟩ := rludInvTMatM256_ok env Mat w h
  obtain ⟨B, hB, hAB, hBA⟩ := C13_invsM256 A B0 ((isUnit_iff_det _).2 hd)
  exact ⟨A, B, _, hA, hB, hAB, hBA, hw⟩

/-- C57: as ISO C reads it, `InvTMatM256` indexes past the end of a row exactly if one of 2016 draws is odd,
and otherwise stores an invertible matrix, and `invsM256` its inverse. -/
theorem C57_InvTMatM256_partial (env : Env) (Mat B0 : M256) (w : World)
    {hyps} :
    ((∃ k, k < 2016 ∧ OddDraw w.seeded.seeded.seeded (30624 + k)) ∧
      rlud.InvTMatM256 env .strict Mat w = .error .oob) ∨
    ((∀ k, k < 2016 → ¬ OddDraw w.seeded.seeded.seeded (30624 + k)) ∧
      ∃ A B w', rlud.InvTMatM256 env .strict Mat w = .ok (A, w') ∧ invsM256 A B0 = .ok B ∧
      mat256 A * mat256 B = 1 ∧ mat256 B * mat256 A = 1 ∧ w'.randseed = w.randseed + 3) := by
  classical
{seps}  obtain ⟨⟨L, w1⟩, hL0, hL, hw1⟩ := rlud.lowM256_ok (env.junkArr2 64 4 256) _ h1
  simp only at hL hw1
  subst hw1
  obtain ⟨hS1, hS2⟩ := rlud.upM256_strict (env.junkArr2 64 4 256) _ h2
  have hrun : rlud.InvTMatM256 env .strict Mat w = (rlud.upM256 .strict (env.junkArr2 64 4 256) >>= fun mat2 => do
    let mat3 ← liftC (MatMulMatM256 env L mat2 (env.junkArr2 64 4 256))
    let mat3 ← forUp 0 255 mat3 fun i mat3 => do
      let r ← cus_random
      liftC do
        let randpivot := i + 1 + (← umod r (BitVec.ofNat 32 (255 - i))).toNat
        swapWords [0, 1, 2, 3] mat3 i randpivot
    liftC (copyM256 mat3 Mat)) (w.seeded.seeded.adv 32640) := by
    unfold rlud.InvTMatM256
    rw [CM_bind_run (reseedInt_run w h0), CM_bind_run hL0]
  have hseed : (w.seeded.seeded.adv 32640).seeded = w.seeded.seeded.seeded := rlud.seeded_adv _ _
  rw [hseed] at hS1 hS2
  by_cases ho : ∃ k, k < 2016 ∧ OddDraw w.seeded.seeded.seeded (30624 + k)
  · exact Or.inl ⟨ho, by rw [hrun]; exact CM_bind_error (hS1 ho)⟩
  · have hn : ∀ k, k < 2016 → ¬ OddDraw w.seeded.seeded.seeded (30624 + k) := fun k hk h' => ho ⟨k, hk, h'⟩
    refine Or.inr ⟨hn, ?_⟩
    obtain ⟨U, hU0, hU, -⟩ := hS2 hn
    have hok : OkM (rlud.InvTMatM256 env .strict Mat) w
        (fun A w' => (mat256 A).det = 1 ∧ w'.randseed = w.randseed + 3#32) := by
      refine rlud.OkM_of_eq (hrun.trans (CM_bind_run hU0)) ?_
      rw [OkM.bind_iff, OkM.liftC_iff]
      refine (MatMulMatM256_ok env L U _).mono ?_
      intro P hP
      have hd : (mat256 P).det = 1 := by rw [hP, det_mul, hL.det, hU.det, one_mul]
      rw [OkM.bind_iff]
      refine (exchange_loop (N := 255) (by norm_num) {bit} ({G}) {swp} ({ops}).swpF P _).mono ?_
      rintro A w' ⟨hA, hG, k, rfl⟩
      rw [OkM.liftC_iff, copyM256_eq, Ok.ok_iff]
      refine ⟨hA.trans hd, ?_⟩
      show w.randseed + 1#32 + 1#32 + 1#32 = _
      rw [BitVec.add_assoc, BitVec.add_assoc]
      rfl
    obtain ⟨⟨A, w'⟩, hA, hd, hw⟩ := hok
    obtain ⟨B, hB, hAB, hBA⟩ := C13_invsM256 A B0 ((isUnit_iff_det _).2 hd)
    exact ⟨A, B, _, hA, hB, hAB, hBA, hw⟩

/-- C57: `InvTMatM256` does index past the end of a row, for instance with seed 0. -/
theorem C57_InvTMatM256_violated : ∃ w : World, w.randseed = 0 ∧
    ∀ env Mat, rlud.InvTMatM256 env .strict Mat w = .error .oob := by
  refine ⟨{{ exWorld with randseed := 0 }}, rfl, fun env Mat => ?_⟩
  rcases C57_InvTMatM256_partial env Mat Mat {{ exWorld with randseed := 0 }} (Or.inl (by decide)) with h | h
  · exact h.2
  · exact absurd (by decide +kernel) (h.1 KINV (by norm_num))
''')
    rowsv = ' rows' if n == 256 else ''
    rowsb = ' (rows : rlud.Rows)' if n == 256 else ''
    o.append(f'''/-- C57: with one of the three largest `int`s in `randseed` an increment overflows. -/
theorem C57_InvTMat{M}_overflow (env : Env){rowsb} (Mat : {M}) (w : World)
    (h : 0x7ffffffd#32 ≤ w.randseed ∧ w.randseed ≤ 0x7fffffff#32) :
    rlud.InvTMat{M} env{rowsv} Mat w = .error .overflow := by
  unfold rlud.InvTMat{M}
  by_cases h0 : w.randseed = 0x7fffffff#32
  · exact CM_bind_error (reseedInt_overflow w h0)
  rw [CM_bind_run (reseedInt_run w h0)]
  by_cases h1 : w.seeded.randseed = 0x7fffffff#32
  · refine CM_bind_error ?_
    unfold rlud.low{M}
    exact CM_bind_error (reseedInt_overflow _ h1)
  obtain ⟨⟨L, w1⟩, hL0, -, hw1⟩ := rlud.low{M}_ok {junk} _ h1
  simp only at hw1
  subst hw1
  rw [CM_bind_run hL0]
  refine CM_bind_error ?_
  unfold rlud.up{M}
  refine CM_bind_error (reseedInt_overflow _ ?_)
  have h1' : w.randseed + 1#32 ≠ 0x7fffffff#32 := h1
  show w.randseed + 1#32 + 1#32 = _
  bv_omega
''')
    if n < 256:
        o.append(f'''example : ∃ A w', rlud.InvTMat{M} exEnv exB{n} exWorld = .ok (A, w') ∧ IsUnit ({m} A) := by
  obtain ⟨A, B, w', h, -, h1, h2, -⟩ := C57_InvTMat{M} exEnv exB{n} exB{n} exWorld (Or.inl (by decide))
  exact ⟨A, w', h, ⟨⟨_, _, h1, h2⟩, rfl⟩⟩''')
    else:
        o.append(f'''example : ∃ A w', rlud.InvTMatM256 exEnv .flat exB256 exWorld = .ok (A, w') ∧ IsUnit (mat256 A) := by
  obtain ⟨A, B, w', h, -, h1, h2, -⟩ := C57_InvTMatM256_flat_partial exEnv exB256 exB256 exWorld (Or.inl (by decide))
  exact ⟨A, w', h, ⟨⟨_, _, h1, h2⟩, rfl⟩⟩''')
    o.append(f'''example : rlud.InvTMat{M} exEnv{' .strict' if n == 256 else ''} exB{n} {{ exWorld with randseed := 0x7ffffffe }} = .error .overflow :=
  C57_InvTMat{M}_overflow _{' _' if n == 256 else ''} _ _ (by decide)
''')
    if n in (4, 8):
        o.append(f'''/-- A run. -/
example : (rlud.low{M} exB{n} exWorld).map (·.1) = .ok RUNLOW{n} := by decide +kernel
example : (rlud.up{M} exB{n} exWorld).map (·.1) = .ok RUNUP{n} := by decide +kernel
example : (rlud.InvTMat{M} exEnv exB{n} exWorld).map (·.1) = .ok RUN{n} := by decide +kernel
''')
o.append('end WB\n')
t = '\n'.join(o)
runs = {'LOW4': [8, 4, 14, 3], 'UP4': [11, 4, 3, 1], '4': [9, 14, 5, 13],
        'LOW8': [0x80, 0x40, 0xe0, 0x30, 0xd8, 0xfc, 0xe6, 0x4d],
        'UP8': [0xb3, 0x6f, 0x3f, 0x12, 0x0c, 0x07, 0x02, 0x01],
        '8': [0xf0, 0xb6, 0x41, 0x68, 0x80, 0x9b, 0x6d, 0xd2]}
for k, v in {'KUP': '2', 'KINV': '2', **{'RUN' + k: '#v[' + ', '.join('0x%02x' % x for x in v) + ']' for k, v in runs.items()}}.items(): t = t.replace(k, v)
open('/verif/lean/Verif/Prop/C57.lean', 'w').write(t)
