import Verif.Model.Github5
import Verif.Proof.Cmp

/-!
# The generator of `/repo/test/github5` (helper lemmas)
-/
namespace WB.cmp.github5

theorem get1 (A : Mem2 Int) (i j : Nat) (h1 : i < A.rows) (h2 : j < A.cols) : A.get i j = .ok (A.cell i j) := if_pos ⟨h1, h2⟩

theorem get0 (A : Mem Int) (i : Nat) (h : i < A.size) : A.get i = .ok (A.cell i) := if_pos h

theorem int32_ok {x : Int} (h1 : -2147483648 ≤ x) (h2 : x ≤ 2147483647) : int32 x = .ok x := if_pos ⟨h1, h2⟩

theorem factor_bounds (rnd : Nat → Nat) (p : Nat) : -10 ≤ factor rnd p ∧ factor rnd p ≤ -6 := by
  unfold factor
  have := Nat.mod_lt (rnd p) (show 0 < 5 by omega)
  omega

theorem mul_bounds {a c : Int} (h : -65535 ≤ a ∧ a ≤ 65535) (hc : -10 ≤ c ∧ c ≤ -6) : -655350 ≤ a * c ∧ a * c ≤ 655350 := by
  obtain ⟨h1, h2⟩ := h
  obtain ⟨c1, c2⟩ := hc
  constructor <;> nlinarith

theorem tempEntry_run (rnd : Nat → Nat) {a : Int} (old : Int) (p : Nat) (h : -65535 ≤ a ∧ a ≤ 65535) :
    Ok (tempEntry rnd a old p) fun r => ∃ c : Int, (c = 1 ∨ -10 ≤ c ∧ c ≤ -6) ∧ r.1 = a * c := by
  unfold tempEntry
  have b1 := mul_bounds h (factor_bounds rnd p)
  have b2 := mul_bounds h (factor_bounds rnd (p + 1))
  have b3 := mul_bounds h (factor_bounds rnd (p + 2))
  rw [int32_ok (by omega) (by omega), C_pure_bind, int32_ok (by omega) (by omega), C_pure_bind]
  split
  · rw [Ok.pure_iff]
    exact ⟨1, .inl rfl, by simp⟩
  · rw [int32_ok (by omega) (by omega), C_pure_bind, int32_ok (by omega) (by omega), C_pure_bind]
    split
    · rw [Ok.pure_iff]
      exact ⟨1, .inl rfl, by simp⟩
    · rw [int32_ok (by omega) (by omega), C_pure_bind, Ok.pure_iff]
      exact ⟨_, .inr (factor_bounds rnd (p + 2)), rfl⟩

/-- The new value of an element. -/
def upd (a t : Int) : Int := if 65535 - a < t ∨ -65535 - a > t then a.tdiv 4 else a + t

theorem updated_run {a : Int} (t : Int) (h : -65535 ≤ a ∧ a ≤ 65535) : updated a t = .ok (upd a t) := by
  unfold updated upd
  rw [int32_ok (by omega) (by omega), C_pure_bind]
  by_cases h1 : 65535 - a < t
  · rw [if_pos h1, if_pos (.inl h1)]; rfl
  · rw [if_neg h1, int32_ok (by omega) (by omega), C_pure_bind]
    by_cases h2 : -65535 - a > t
    · rw [if_pos h2, if_pos (.inr h2)]; rfl
    · rw [if_neg h2, if_neg (by omega), int32_ok (by omega) (by omega)]

theorem upd_bounds {a t : Int} (h : -65535 ≤ a ∧ a ≤ 65535) : -65535 ≤ upd a t ∧ upd a t ≤ 65535 := by
  unfold upd
  split
  · have : (a.tdiv 4).natAbs ≤ a.natAbs := by
      rw [Int.natAbs_tdiv]
      exact Nat.div_le_self _ _
    omega
  · omega

def Dim (n : Nat) (A : Mem2 Int) : Prop := A.rows = n ∧ A.cols = n

def Bounded (n : Nat) (A : Mem2 Int) : Prop := ∀ i j, i < n → j < n → -65535 ≤ A.cell i j ∧ A.cell i j ≤ 65535

theorem tempRow_run (rnd : Nat → Nat) {n main : Nat} {A : Mem2 Int} {s : Mem Int × Nat} (hA : Dim n A) (hb : Bounded n A) (hm : main < n)
    (hs : s.1.size = n) : Ok (tempRow rnd n A main s) fun r => r.1.size = n ∧
      ∀ k, k < n → ∃ c : Int, (c = 1 ∨ -10 ≤ c ∧ c ≤ -6) ∧ r.1.cell k = A.cell main k * c := by
  obtain ⟨h1, h2⟩ := hA
  refine Ok.forUp (P := fun k (r : Mem Int × Nat) => r.1.size = n ∧
    ∀ x, x < k → ∃ c : Int, (c = 1 ∨ -10 ≤ c ∧ c ≤ -6) ∧ r.1.cell x = A.cell main x * c) (Nat.zero_le _)
    ⟨hs, fun x h => absurd h (by omega)⟩ ?_ fun _ h => h
  rintro k ⟨t, p⟩ _ hk ⟨g1, g2⟩
  simp only at g1 g2 ⊢
  rw [get1 A main k (by omega) (by omega), C_pure_bind, get0 t k (by omega), C_pure_bind, Ok.bind_iff]
  refine (tempEntry_run rnd _ p (hb main k hm hk)).mono ?_
  rintro ⟨v, p'⟩ ⟨c, hc, hv⟩
  simp only at hv ⊢
  rw [Ok.bind_iff, Mem.Ok_put]
  refine ⟨by omega, ?_⟩
  rw [Ok.pure_iff]
  refine ⟨g1, fun x hx => ?_⟩
  simp only
  by_cases hxk : x = k
  · rw [if_pos hxk, hxk]; exact ⟨c, hc, hv⟩
  · rw [if_neg hxk]; exact g2 x (by omega)

theorem updateRows_run {n main : Nat} {t : Mem Int} {A : Mem2 Int} (hA : Dim n A) (hb : Bounded n A) (ht : t.size = n) :
    Ok (updateRows n t main A) fun r => Dim n r ∧
      ∀ j k, j < n → k < n → r.cell j k = if j = main then A.cell j k else upd (A.cell j k) (t.cell k) := by
  obtain ⟨h1, h2⟩ := hA
  refine Ok.forUp (P := fun j (r : Mem2 Int) => Dim n r ∧
    ∀ x k, x < n → k < n → r.cell x k = if x = main ∨ j ≤ x then A.cell x k else upd (A.cell x k) (t.cell k)) (Nat.zero_le _)
    ⟨⟨h1, h2⟩, fun x k _ _ => by rw [if_pos (.inr (Nat.zero_le _))]⟩ ?_ ?_
  · rintro j r _ hj ⟨⟨g1, g1'⟩, g2⟩
    by_cases hm : main = j
    · rw [if_neg (by simp [hm]), Ok.pure_iff]
      refine ⟨⟨g1, g1'⟩, fun x k hx hk => ?_⟩
      rw [g2 x k hx hk]
      by_cases hc : x = main ∨ j ≤ x
      · rw [if_pos hc, if_pos (by omega)]
      · rw [if_neg hc, if_neg (by omega)]
    · rw [if_pos hm]
      refine (row_run (A := r) (i := j) (fun k => upd (A.cell j k) (t.cell k)) (by omega) (by omega) ?_).mono ?_
      · intro k B hk hr hc hB
        have e : B.cell j k = A.cell j k := by rw [hB j k (.inr (Nat.le_refl _)), g2 j k hj hk, if_pos (.inr (Nat.le_refl _))]
        rw [get1 B j k (by omega) (by omega), C_pure_bind, get0 t k (by omega), C_pure_bind, e, updated_run _ (hb j k hj hk), C_pure_bind]
      · rintro B rfl
        refine ⟨⟨g1, g1'⟩, fun x k hx hk => ?_⟩
        simp only
        by_cases hxj : x = j
        · rw [if_pos ⟨hxj, hk⟩, if_neg (by omega), hxj]
        · rw [if_neg (by omega), g2 x k hx hk]
          by_cases hc : x = main ∨ j ≤ x
          · rw [if_pos hc, if_pos (by omega)]
          · rw [if_neg hc, if_neg (by omega)]
  · rintro r ⟨g1, g2⟩
    refine ⟨g1, fun j k hj hk => ?_⟩
    rw [g2 j k hj hk]
    by_cases hc : j = main
    · rw [if_pos (.inl hc), if_pos hc]
    · rw [if_neg (by omega), if_neg hc]

/-- The effect of one transformation with main row `main`. -/
def Stepped (n main : Nat) (A B : Mem2 Int) : Prop :=
  ∃ c : Nat → Int, ∀ j k, j < n → k < n → B.cell j k = if j = main then A.cell j k else upd (A.cell j k) (A.cell main k * c k)

theorem transform_run (rnd : Nat → Nat) {n : Nat} {s : St} (hn : 2 ≤ n) (hA : Dim n s.array) (hb : Bounded n s.array) (ht : s.temp.size = n) :
    Ok (transform rnd n s) fun r => Dim n r.array ∧ Bounded n r.array ∧ r.temp.size = n ∧ ∃ main, main < n - 1 ∧ Stepped n main s.array r.array := by
  have hm : rnd s.pos % (n - 1) < n - 1 := Nat.mod_lt _ (by omega)
  unfold transform mainRow
  rw [if_neg (by omega), if_neg (by omega), C_pure_bind, Ok.bind_iff]
  refine (tempRow_run rnd (s := (s.temp, s.pos + 1)) hA hb (main := rnd s.pos % (n - 1)) (by omega) ht).mono ?_
  rintro ⟨t, p⟩ ⟨t1, t2⟩
  simp only at t1 t2 ⊢
  rw [Ok.bind_iff]
  refine (updateRows_run hA hb t1).mono ?_
  rintro B ⟨g1, g2⟩
  rw [Ok.pure_iff]
  have hc : ∀ k, ∃ c : Int, k < n → t.cell k = s.array.cell (rnd s.pos % (n - 1)) k * c := fun k => by
    by_cases hk : k < n
    · obtain ⟨c, _, h⟩ := t2 k hk
      exact ⟨c, fun _ => h⟩
    · exact ⟨0, fun h => absurd h hk⟩
  choose c hc using hc
  refine ⟨g1, fun i j hi hj => ?_, t1, _, hm, c, fun j k hj hk => ?_⟩
  · rw [g2 i j hi hj]
    split
    · exact hb i j hi hj
    · exact upd_bounds (hb i j hi hj)
  · rw [g2 j k hj hk, hc k hk]

/-- An invariant of the transformations holds in the end. -/
theorem generate_run (rnd : Nat → Nat) (junk : Nat → Int) {n : Nat} {A : Mem2 Int} (hn : 2 ≤ n) (hA : Dim n A) (hb : Bounded n A)
    (I : Mem2 Int → Prop) (hI : I A) (hs : ∀ B C main, main < n - 1 → Stepped n main B C → I B → I C) :
    Ok (getInvertibleMatrix rnd junk n A) fun r => Dim n r ∧ Bounded n r ∧ I r := by
  unfold getInvertibleMatrix
  rw [Ok.bind_iff]
  refine Ok.forUp (P := fun _ (s : St) => Dim n s.array ∧ Bounded n s.array ∧ s.temp.size = n ∧ I s.array) (Nat.zero_le _)
    ⟨hA, hb, rfl, hI⟩ ?_ fun s h => (Ok.pure_iff _ _).2 ⟨h.1, h.2.1, h.2.2.2⟩
  rintro i s _ _ ⟨h1, h2, h3, h4⟩
  refine (transform_run rnd hn h1 h2 h3).mono ?_
  rintro r ⟨g1, g2, g3, main, g4, g5⟩
  exact ⟨g1, g2, g3, hs _ _ main g4 g5 h4⟩

theorem identity_run {n : Nat} {A : Mem2 Int} (hA : Dim n A) :
    Ok (getIdentityMatrix n A) fun R => Dim n R ∧ ∀ i j, i < n → j < n → R.cell i j = if i = j then 1 else 0 := by
  unfold getIdentityMatrix
  refine (fill (look := fun (m : Mem2 Int) i j => m.cell i j) (F := fun i j => if i = j then 1 else 0) (Good := fun m => Dim n m) hA ?_)
  rintro i j m hi hj ⟨h1, h2⟩
  rw [show (if i = j then m.put i j 1 else m.put i j 0) = m.put i j (if i = j then 1 else 0) by split <;> rfl, Mem2.Ok_put]
  exact ⟨by omega, ⟨h1, h2⟩, if_pos ⟨rfl, rfl⟩, fun k l _ _ h => if_neg (by omega)⟩

theorem ident_bounded {n : Nat} {A : Mem2 Int} (h : ∀ i j, i < n → j < n → A.cell i j = if i = j then 1 else 0) : Bounded n A := by
  intro i j hi hj
  rw [h i j hi hj]
  split <;> omega

/-- The last column is a unit column. -/
def LastCol (n : Nat) (A : Mem2 Int) : Prop := ∀ i, i < n → A.cell i (n - 1) = if i = n - 1 then 1 else 0

theorem lastCol_step {n : Nat} (hn : 2 ≤ n) (A B : Mem2 Int) (main : Nat) (hm : main < n - 1) (h : Stepped n main A B) (hA : LastCol n A) :
    LastCol n B := by
  obtain ⟨c, hc⟩ := h
  intro i hi
  rw [hc i (n - 1) hi (by omega), hA i hi, hA main (by omega), if_neg (by omega : ¬ main = n - 1), zero_mul]
  by_cases h1 : i = main
  · rw [if_pos h1]
  · rw [if_neg h1]
    by_cases h2 : i = n - 1
    · rw [if_pos h2]; rfl
    · rw [if_neg h2]; rfl

theorem firstRow_step (A B : Mem2 Int) (main : Nat) (hm : main < 2 - 1) (h : Stepped 2 main A B)
    (hA : LastCol 2 A ∧ A.cell 0 0 = 1) : LastCol 2 B ∧ B.cell 0 0 = 1 := by
  refine ⟨lastCol_step (by omega) A B main hm h hA.1, ?_⟩
  obtain ⟨c, hc⟩ := h
  rw [hc 0 0 (by omega) (by omega), if_pos (by omega), hA.2]

end WB.cmp.github5
