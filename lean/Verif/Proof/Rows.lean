import Verif.Proof.RowOps

/-!
# Loops that fill a matrix row by row (helper lemmas)
-/
namespace WB
open Matrix

/-- A loop whose body determines row `i` and leaves the other rows alone. -/
theorem rowLoop {R : Type} {lo hi n : Nat} {M : Vector R n} {body : Nat → Vector R n → C (Vector R n)}
    (P : Nat → R → Prop) (hle : lo ≤ hi) (hhi : hi ≤ n)
    (hb : ∀ i (M : Vector R n), lo ≤ i → (h : i < hi) → Ok (body i M)
      (fun M' => P i (M'[i]'(by omega)) ∧ ∀ r (hr : r < n), r ≠ i → M'[r] = M[r])) :
    Ok (forUp lo hi M body) (fun M' => ∀ r (hr : r < n),
      (lo ≤ r → r < hi → P r M'[r]) ∧ (r < lo ∨ hi ≤ r → M'[r] = M[r])) := by
  refine Ok.forUp (fun i M' => ∀ r (hr : r < n),
      (lo ≤ r → r < i → P r M'[r]) ∧ (r < lo ∨ i ≤ r → M'[r] = M[r])) hle ?_ ?_ ?_
  · intro r hr
    exact ⟨fun h1 h2 => by omega, fun _ => rfl⟩
  · intro i M' h1 h2 hI
    refine (hb i M' h1 h2).mono ?_
    rintro M'' ⟨hP, hrest⟩ r hr
    constructor
    · intro h3 h4
      by_cases h : r = i
      · subst h; exact hP
      · rw [hrest r hr h]; exact (hI r hr).1 h3 (by omega)
    · intro h3
      rw [hrest r hr (by omega)]
      exact (hI r hr).2 (by omega)
  · intro M' h; exact h

/-- `for(i = 0; i < n; i++) M[i] = g(i);` -/
theorem fill_spec {R : Type} {n : Nat} (M : Vector R n) (g : Nat → C R) (f : Fin n → R)
    (hg : ∀ i (h : i < n), g i = .ok (f ⟨i, h⟩)) :
    (forUp 0 n M fun i M => do wr M i (← g i)) = .ok (Vector.ofFn f) := by
  rw [← Ok.eq]
  refine (rowLoop (fun i x => ∀ h : i < n, x = f ⟨i, h⟩) (Nat.zero_le _) (Nat.le_refl _) ?_).mono ?_
  · intro i M _ h
    rw [hg i h]
    simp only [C_pure_bind, Ok_wr]
    refine ⟨h, by simp, ?_⟩
    intro r hr hne
    simp [Ne.symm hne]
  · intro M' h
    ext i hi
    rw [(h i hi).1 (Nat.zero_le _) hi hi]
    simp

theorem fillc_spec {R : Type} {n : Nat} (M : Vector R n) (x : R) :
    (forUp 0 n M fun i M => wr M i x) = .ok (Vector.replicate n x) := by
  have := fill_spec M (fun _ => .ok x) (fun _ => x) (fun _ _ => rfl)
  rw [show (forUp 0 n M fun i M => wr M i x) =
    (forUp 0 n M fun i M => do wr M i (← (.ok x : C R))) from rfl, this]
  congr 1
  ext i hi; simp

/-- A word-wise assignment of a whole row. -/
theorem rowSet {l n : Nat} {M M' : Vector (Vector (BitVec 64) l) n} {i : Nat} (hi : i < n)
    {x : Vector (BitVec 64) l}
    (h : M' = M.set i x) : M'[i] = x ∧ ∀ r (hr : r < n), r ≠ i → M'[r] = M[r] := by
  subst h
  refine ⟨by simp, ?_⟩
  intro r hr hne
  simp [Ne.symm hne]

theorem wr2_ok {α : Type} {n m : Nat} (a : Vector (Vector α m) n) (i k : Nat) (x : α)
    (h : i < n) (h' : k < m) : wr2 a i k x = .ok (a.set i (a[i].set k x)) := by
  simp [wr2, rd_ok _ _ h, wr_ok _ _ _ h, wr_ok _ _ _ h']

theorem wr2_set {α : Type} {n m : Nat} (a : Vector (Vector α m) n) (i k : Nat) (x : α)
    (v : Vector α m) (h : i < n) (h' : k < m) :
    wr2 (a.set i v) i k x = .ok (a.set i (v.set k x)) := by
  rw [wr2_ok _ _ _ _ h h']
  simp

theorem set2_2 {n : Nat} (M : Vector (Vector (BitVec 64) 2) n) {i : Nat} (hi : i < n)
    (x0 x1 : BitVec 64) (Q : Vector (Vector (BitVec 64) 2) n → Prop)
    (hQ : Q (M.set i #v[x0, x1])) :
    Ok (do
      let M ← wr2 M i 0 x0
      let M ← wr2 M i 1 x1
      pure M) Q := by
  rw [wr2_ok _ _ _ _ hi (by omega), C_pure_bind, wr2_set _ _ _ _ _ hi (by omega),
    Ok.ok_iff]
  have : (M[i].set 0 x0).set 1 x1 = #v[x0, x1] := by
    ext k hk
    obtain rfl | rfl : k = 0 ∨ k = 1 := by omega
    all_goals simp
  rw [this]; exact hQ

theorem set2_4 {n : Nat} (M : Vector (Vector (BitVec 64) 4) n) {i : Nat} (hi : i < n)
    (x0 x1 x2 x3 : BitVec 64) (Q : Vector (Vector (BitVec 64) 4) n → Prop)
    (hQ : Q (M.set i #v[x0, x1, x2, x3])) :
    Ok (do
      let M ← wr2 M i 0 x0
      let M ← wr2 M i 1 x1
      let M ← wr2 M i 2 x2
      let M ← wr2 M i 3 x3
      pure M) Q := by
  rw [wr2_ok _ _ _ _ hi (by omega), C_pure_bind, wr2_set _ _ _ _ _ hi (by omega), C_pure_bind,
    wr2_set _ _ _ _ _ hi (by omega), C_pure_bind, wr2_set _ _ _ _ _ hi (by omega),
    Ok.ok_iff]
  have : (((M[i].set 0 x0).set 1 x1).set 2 x2).set 3 x3 = #v[x0, x1, x2, x3] := by
    ext k hk
    obtain rfl | rfl | rfl | rfl : k = 0 ∨ k = 1 ∨ k = 2 ∨ k = 3 := by omega
    all_goals simp
  rw [this]; exact hQ

theorem rd2_ok {α : Type} {n m : Nat} (a : Vector (Vector α m) n) (i k : Nat) (h : i < n)
    (h' : k < m) : rd2 a i k = .ok a[i][k] := by
  simp [rd2, rd_ok _ _ h, rd_ok _ _ h']

theorem fill2_spec {lo hi n : Nat} (M : Vector (Vector (BitVec 64) 2) n)
    (g0 g1 : Nat → C (BitVec 64)) (f0 f1 : Nat → BitVec 64) (hle : lo ≤ hi) (hhi : hi ≤ n)
    (h0 : ∀ i, lo ≤ i → i < hi → g0 i = .ok (f0 i))
    (h1 : ∀ i, lo ≤ i → i < hi → g1 i = .ok (f1 i)) :
    Ok (forUp lo hi M fun i M => do
      let M ← wr2 M i 0 (← g0 i)
      let M ← wr2 M i 1 (← g1 i)
      pure M) (fun M' => ∀ r (hr : r < n),
        (lo ≤ r → r < hi → M'[r] = #v[f0 r, f1 r]) ∧ (r < lo ∨ hi ≤ r → M'[r] = M[r])) := by
  refine rowLoop (fun i x => x = #v[f0 i, f1 i]) hle hhi ?_
  intro i M hl hh
  rw [h0 i hl hh, h1 i hl hh]
  simp only [C_pure_bind]
  exact set2_2 M (by omega) _ _ _ (rowSet (by omega) rfl)

theorem fill4_spec {lo hi n : Nat} (M : Vector (Vector (BitVec 64) 4) n)
    (g0 g1 g2 g3 : Nat → C (BitVec 64)) (f0 f1 f2 f3 : Nat → BitVec 64) (hle : lo ≤ hi)
    (hhi : hi ≤ n)
    (h0 : ∀ i, lo ≤ i → i < hi → g0 i = .ok (f0 i))
    (h1 : ∀ i, lo ≤ i → i < hi → g1 i = .ok (f1 i))
    (h2 : ∀ i, lo ≤ i → i < hi → g2 i = .ok (f2 i))
    (h3 : ∀ i, lo ≤ i → i < hi → g3 i = .ok (f3 i)) :
    Ok (forUp lo hi M fun i M => do
      let M ← wr2 M i 0 (← g0 i)
      let M ← wr2 M i 1 (← g1 i)
      let M ← wr2 M i 2 (← g2 i)
      let M ← wr2 M i 3 (← g3 i)
      pure M) (fun M' => ∀ r (hr : r < n),
        (lo ≤ r → r < hi → M'[r] = #v[f0 r, f1 r, f2 r, f3 r]) ∧
        (r < lo ∨ hi ≤ r → M'[r] = M[r])) := by
  refine rowLoop (fun i x => x = #v[f0 i, f1 i, f2 i, f3 i]) hle hhi ?_
  intro i M hl hh
  rw [h0 i hl hh, h1 i hl hh, h2 i hl hh, h3 i hl hh]
  simp only [C_pure_bind]
  exact set2_4 M (by omega) _ _ _ _ _ (rowSet (by omega) rfl)

theorem vec2_eta {α : Type} (v : Vector α 2) : #v[v[0], v[1]] = v := by
  ext k hk
  obtain rfl | rfl : k = 0 ∨ k = 1 := by omega
  all_goals simp

theorem vec4_eta {α : Type} (v : Vector α 4) : #v[v[0], v[1], v[2], v[3]] = v := by
  ext k hk
  obtain rfl | rfl | rfl | rfl : k = 0 ∨ k = 1 ∨ k = 2 ∨ k = 3 := by omega
  all_goals simp

/-! ## Equality tests -/

/-- A search loop for the first differing row. -/
theorem eqLoop {n : Nat} (body : Nat → Unit → C (Step Int Unit)) (p : Nat → Prop)
    [∀ i, Decidable (p i)]
    (hb : ∀ i, i < n → body i () = if p i then .ok (.next ()) else .ok (.stop 0)) :
    (do
      let r ← forRet 0 n () body
      match r with
      | .stop r => pure r
      | .next _ => pure 1 : C Int) = .ok (if ∀ i, i < n → p i then 1 else 0) := by
  rw [← Ok.eq]
  refine Ok.bind (P := fun st => Step.holds (fun _ => ∀ i, i < n → p i)
    (fun r => r = 0 ∧ ¬ ∀ i, i < n → p i) st) ?_ ?_
  · refine Ok.forRet (fun i _ => ∀ r, r < i → p r) (fun r => r = 0 ∧ ¬ ∀ i, i < n → p i)
      (Nat.zero_le _) (fun r h => by omega) ?_ (fun s h => h) (fun r h => h)
    intro i s _ hi hI
    rw [hb i hi]
    by_cases hp : p i
    · simp only [hp, if_true, Ok.ok_iff, Step.holds_next]
      intro r hr
      by_cases e : r = i
      · subst e; exact hp
      · exact hI r (by omega)
    · simp only [hp, if_false, Ok.ok_iff, Step.holds_stop]
      exact ⟨trivial, fun h => hp (h i hi)⟩
  · intro st h
    match st, h with
    | .next _, h =>
      have h' : ∀ i, i < n → p i := h
      simp only [Ok.pure_iff]; rw [if_pos h']
    | .stop r, h =>
      have h' : r = 0 ∧ ¬ ∀ i, i < n → p i := h
      simp only [Ok.pure_iff]; rw [if_neg h'.2]; exact h'.1

end WB
