import Verif.Model.M4riJcf
import Verif.Proof.M4riTri
import Mathlib.Data.List.Induction

/-!
# Reading a matrix in JCF format (helper lemmas)
-/
namespace WB.m4w

/-- How many of the numbers begin a row. -/
def jcfRows (l : List Int) : Nat := l.countP fun e => decide (e < 0)

/-- The numbers are in range: none is zero, the first begins a row, and neither rows nor columns are exceeded. -/
structure JcfValid (m n : Nat) (l : List Int) : Prop where
  nonzero : ∀ e ∈ l, e ≠ 0
  column : ∀ e ∈ l, e.natAbs ≤ n
  row : jcfRows l ≤ m
  first : ∀ e, l.head? = some e → e < 0

/-- Entry `(a, b)` is given by one of the numbers: it has the absolute value `b + 1`, and `a + 1` rows have begun up to it. -/
def JcfEntry (l : List Int) (a b : Nat) : Prop := ∃ (k : Nat) (e : Int), l[k]? = some e ∧ e.natAbs = b + 1 ∧ jcfRows (l.take (k + 1)) = a + 1

variable {m n : Nat} {l : List Int} {x : Int}

theorem jcfRows_append (l : List Int) (x : Int) : jcfRows (l ++ [x]) = jcfRows l + if x < 0 then 1 else 0 := by
  unfold jcfRows
  rw [List.countP_append, List.countP_singleton]
  by_cases h : x < 0 <;> simp [h]

theorem JcfValid.init (h : JcfValid m n (l ++ [x])) : JcfValid m n l where
  nonzero e he := h.nonzero e (List.mem_append_left _ he)
  column e he := h.column e (List.mem_append_left _ he)
  row := by have := h.row; rw [jcfRows_append] at this; omega
  first e he := h.first e (by cases l with
    | nil => exact absurd he (by simp)
    | cons a t => exact he)

theorem JcfValid.pos (h : JcfValid m n l) (hl : l ≠ []) : 0 < jcfRows l := by
  cases l with
  | nil => exact absurd rfl hl
  | cons a t => exact List.countP_pos_iff.2 ⟨a, List.mem_cons_self .., decide_eq_true (h.first a rfl)⟩

theorem jcfEntry_append (l : List Int) (x : Int) (a b : Nat) : JcfEntry (l ++ [x]) a b ↔ JcfEntry l a b ∨ (x.natAbs = b + 1 ∧ jcfRows (l ++ [x]) = a + 1) := by
  constructor
  · rintro ⟨k, e, h1, h2, h3⟩
    rcases Nat.lt_trichotomy k l.length with g | g | g
    · rw [List.getElem?_append_left g] at h1
      rw [List.take_append_of_le_length (by omega)] at h3
      exact .inl ⟨k, e, h1, h2, h3⟩
    · subst g
      rw [List.getElem?_append_right (Nat.le_refl _), Nat.sub_self] at h1
      obtain rfl : x = e := by simpa using h1
      rw [List.take_of_length_le (by simp)] at h3
      exact .inr ⟨h2, h3⟩
    · rw [List.getElem?_eq_none (by simp; omega)] at h1
      exact absurd h1 (by simp)
  · rintro (⟨k, e, h1, h2, h3⟩ | ⟨h2, h3⟩)
    · have g : k < l.length := (List.getElem?_eq_some_iff.1 h1).1
      exact ⟨k, e, by rw [List.getElem?_append_left g]; exact h1, h2, by rw [List.take_append_of_le_length (by omega)]; exact h3⟩
    · exact ⟨l.length, x, by simp, h2, by rw [List.take_of_length_le (by simp)]; exact h3⟩

theorem jcf_fold (hn : n < 2 ^ 63) (h : JcfValid m n l) :
    Ok (l.foldlM jcfStep (mzd_init m n, -1)) fun s => Sh (mzd_init m n) s.1 ∧ s.2 = (jcfRows l : Int) - 1 ∧ ∀ a b, s.1.bit a b = true ↔ JcfEntry l a b := by
  induction l using List.reverseRecOn with
  | nil =>
    show Ok (pure (mzd_init m n, -1)) _
    rw [Ok.pure_iff]
    refine ⟨Sh.refl _, by simp [jcfRows], fun a b => ?_⟩
    rw [init_bit]
    refine ⟨fun h => absurd h (by simp), ?_⟩
    rintro ⟨k, e, h1, _⟩
    exact absurd h1 (by simp)
  | append_singleton l x ih =>
    rw [List.foldlM_append]
    refine Ok.bind (ih h.init) ?_
    intro s ⟨sh, h2, h3⟩
    have hx := h.nonzero x (by simp)
    have hc := h.column x (by simp)
    have hr := h.row
    have hp := h.pos (by simp)
    have hi : (if x < 0 then s.2 + 1 else s.2) = (jcfRows (l ++ [x]) : Int) - 1 := by
      rw [jcfRows_append, h2]; split_ifs <;> push_cast <;> omega
    have hj : (if x < 0 then -x else x) = (x.natAbs : Int) := by split_ifs <;> omega
    rw [List.foldlM_cons]
    have hs : jcfStep s x = (do pure (← mzd_write_bit s.1 (jcfRows (l ++ [x]) - 1) (x.natAbs - 1) true, (jcfRows (l ++ [x]) : Int) - 1)) := by
      unfold jcfStep
      rw [if_neg (by omega)]
      dsimp only
      rw [hi, hj, if_neg (by
        have e1 : s.1.ncols = n := sh.ncols
        have e2 : s.1.nrows = m := sh.nrows
        rw [e1, e2]
        omega), if_neg (by omega), if_neg (by omega), show ((jcfRows (l ++ [x]) : Int) - 1).toNat = jcfRows (l ++ [x]) - 1 by omega, show ((x.natAbs : Int) - 1).toNat = x.natAbs - 1 by omega]
    rw [hs]
    obtain ⟨N, e, shN, hN⟩ := write_bit (sh.wf (init_wf m n)) (i := jcfRows (l ++ [x]) - 1) (j := x.natAbs - 1)
      (by rw [sh.nrows]; show _ < m; omega) (by rw [sh.ncols]; show _ < n; omega) true
    rw [e, C_ok_bind, C_pure_eq, C_ok_bind]
    show Ok (pure (N, _)) _
    rw [Ok.pure_iff]
    refine ⟨sh.trans shN, rfl, fun a b => ?_⟩
    show N.bit a b = true ↔ _
    rw [hN, jcfEntry_append, ← h3]
    by_cases g : a = jcfRows (l ++ [x]) - 1 ∧ b = x.natAbs - 1
    · rw [if_pos g]
      exact ⟨fun _ => .inr ⟨by omega, by omega⟩, fun _ => rfl⟩
    · rw [if_neg g]
      exact ⟨.inl, fun k => k.resolve_right fun k => g ⟨by omega, by omega⟩⟩

/-- What happens at a number after valid ones. -/
theorem jcf_next (hn : n < 2 ^ 63) (h : JcfValid m n l) (rest : List Int) {err : Fault} (hs : ∀ s : Mzd × Int, s.1.nrows = m → s.1.ncols = n → s.2 = (jcfRows l : Int) - 1 → jcfStep s x = .error err) :
    mzd_from_jcf (some (m, n, 2)) (l ++ x :: rest) = .error err := by
  obtain ⟨s, e, sh, h2, _⟩ := jcf_fold hn h
  show ((l ++ x :: rest).foldlM jcfStep (mzd_init m n, -1) >>= _) = _
  rw [List.foldlM_append, e, C_ok_bind, List.foldlM_cons, hs s sh.nrows sh.ncols h2]
  rfl

end WB.m4w
