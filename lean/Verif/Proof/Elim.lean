import Verif.Proof.Wp
import Verif.Proof.Gauss

/-!
# Gaussian elimination loops (helper lemmas)

Loop rules for the elimination, pivot search and back substitution loops, for an arbitrary
state `S` that shows a matrix `tm s`, together with an extra invariant `J k s` where `k`
bounds the number of row operations performed so far.
-/
namespace WB
open Matrix

variable {n : Nat} {S : Type}

/-- The loop `for(j = i + 1; j < n; j++) if(bit (j,i)) add row i to row j;`. -/
theorem elim_spec (tm : S → Mat n) (J : Nat → S → Prop) (test : Nat → S → C Bool)
    (add : Nat → S → C S) (i : Fin n) (B : Nat)
    (htest : ∀ s j (hj : j < n), Ok (test j s) (fun b => b = true ↔ tm s ⟨j, hj⟩ i = 1))
    (hadd : ∀ k s j (hj : j < n), i.val < j → k < B → J k s → Tri i.val (tm s) →
      Ok (add j s) (fun s' => tm s' = addR ⟨j, hj⟩ i (tm s) ∧ J (k + 1) s'))
    (hmono : ∀ k s, J k s → J (k + 1) s)
    {s : S} {k : Nat} (hk : k + (n - 1 - i.val) ≤ B) (hJ : J k s) (hT : Tri i.val (tm s))
    (hp : tm s i i = 1 ∨ ∀ r : Fin n, i.val < r.val → tm s r i = 0) :
    Ok (forUp (i.val + 1) n s fun j s => do if ← test j s then add j s else pure s)
      (fun s' => Tri (i.val + 1) (tm s') ∧ J (k + (n - 1 - i.val)) s' ∧
        tm s' i i = tm s i i) := by
  have hi := i.2
  refine Ok.forUp (fun j s' => J (k + (j - (i.val + 1))) s' ∧ Tri i.val (tm s') ∧
      tm s' i i = tm s i i ∧
      (tm s i i = 1 ∨ ∀ r : Fin n, i.val < r.val → tm s' r i = 0) ∧
      (∀ r : Fin n, i.val < r.val → r.val < j → tm s' r i = 0)) (by omega) ?_ ?_ ?_
  · refine ⟨by simpa using hJ, hT, rfl, hp, ?_⟩
    intro r h1 h2; omega
  · rintro j s' hj1 hj2 ⟨hJ', hT', hii, hp', hz⟩
    refine Ok.bind (htest s' j hj2) ?_
    intro b hb
    by_cases hbt : b = true
    · simp only [hbt, if_true]
      have h1 := hb.1 hbt
      have hp1 : tm s i i = 1 := by
        rcases hp' with h | h
        · exact h
        · have := h ⟨j, hj2⟩ (by simpa using hj1)
          rw [this] at h1; exact absurd h1 (by decide)
      refine (hadd _ s' j hj2 (by omega) (by omega) hJ' hT').mono ?_
      rintro s'' ⟨htm, hJ''⟩
      refine ⟨by rw [show k + (j + 1 - (i.val + 1)) = k + (j - (i.val + 1)) + 1 by omega]
                 exact hJ'', ?_, ?_, Or.inl hp1, ?_⟩
      · rw [htm]; exact hT'.addR rfl (by simp; omega)
      · rw [htm]; simp only [addR]
        rw [if_neg (by intro h; rw [h] at hj1; simp at hj1)]; exact hii
      · intro r hr1 hr2
        rw [htm]; simp only [addR]
        split
        · rw [h1, hii, hp1]; decide
        · rename_i hne
          refine hz r hr1 ?_
          have : r.val ≠ j := fun h => hne (Fin.ext h)
          omega
    · simp only [hbt]
      have h0 : tm s' ⟨j, hj2⟩ i = 0 := z2_ne_one.1 (fun h => hbt (hb.2 h))
      refine (Ok.pure_iff _ _).2 ⟨?_, hT', hii, hp', ?_⟩
      · rw [show k + (j + 1 - (i.val + 1)) = k + (j - (i.val + 1)) + 1 by omega]
        exact hmono _ _ hJ'
      · intro r hr1 hr2
        by_cases h : r.val = j
        · have : r = ⟨j, hj2⟩ := Fin.ext h
          rw [this]; exact h0
        · exact hz r hr1 (by omega)
  · rintro s' ⟨hJ', hT', hii, -, hz⟩
    refine ⟨?_, by rw [show k + (n - 1 - i.val) = k + (n - (i.val + 1)) by omega]; exact hJ', hii⟩
    intro r c hc hr
    by_cases h : c.val < i.val
    · exact hT' r c h hr
    · have : c = i := Fin.ext (by omega)
      subst this
      exact hz r hr r.2

/-- The pivot search with a flag: `for(j = i + 1; j < n; j++) if(bit (j,i)) { exchange rows i
and j; flag = 0; break; }`. -/
theorem search_spec (tm : S → Mat n) (J : Nat → S → Prop) (test : Nat → S → C Bool)
    (swp : Nat → S → C S) (i : Fin n) (B : Nat)
    (htest : ∀ s j (hj : j < n), Ok (test j s) (fun b => b = true ↔ tm s ⟨j, hj⟩ i = 1))
    (hswp : ∀ k s j (hj : j < n), i.val < j → k < B → J k s → Tri i.val (tm s) →
      Ok (swp j s) (fun s' => tm s' = swapR i ⟨j, hj⟩ (tm s) ∧ J (k + 1) s'))
    {s : S} {k : Nat} (hk : k < B) (hJ : J k s) (hT : Tri i.val (tm s)) (h0 : tm s i i = 0) :
    Ok (forBrk (i.val + 1) n (s, true) fun j (s, flag) => do
        if ← test j s then
          let s ← swp j s
          pure (.stop (s, false))
        else pure (.next (s, flag)))
      (fun s' => Tri i.val (tm s'.1) ∧
        (s'.2 = true → J k s'.1 ∧ ∀ r : Fin n, i.val ≤ r.val → tm s'.1 r i = 0) ∧
        (s'.2 = false → J (k + 1) s'.1 ∧ tm s'.1 i i = 1)) := by
  have hi := i.2
  refine Ok.forBrk (fun j s' => s'.2 = true ∧ J k s'.1 ∧ Tri i.val (tm s'.1) ∧
      (∀ r : Fin n, i.val ≤ r.val → r.val < j → tm s'.1 r i = 0))
    (fun s' => s'.2 = false ∧ Tri i.val (tm s'.1) ∧ J (k + 1) s'.1 ∧ tm s'.1 i i = 1)
    (by omega) ?_ ?_ ?_ ?_
  · refine ⟨rfl, hJ, hT, ?_⟩
    intro r h1 h2
    have : r = i := Fin.ext (by omega)
    subst this; exact h0
  · rintro j ⟨s', fl⟩ hj1 hj2 ⟨hfl, hJ', hT', hz⟩
    simp only at hfl hJ' hT' hz ⊢
    refine Ok.bind (htest s' j hj2) ?_
    intro b hb
    by_cases hbt : b = true
    · simp only [hbt, if_true]
      have h1 := hb.1 hbt
      refine Ok.bind (hswp k s' j hj2 (by omega) hk hJ' hT') ?_
      rintro s'' ⟨htm, hJ''⟩
      refine (Ok.pure_iff _ _).2 ?_
      refine ⟨rfl, ?_, hJ'', ?_⟩
      · simp only; rw [htm]; exact hT'.swapR (by omega) (by simp; omega)
      · simp only; rw [htm]; simp only [swapR, Equiv.swap_apply_left]; exact h1
    · simp only [hbt]
      have h0 : tm s' ⟨j, hj2⟩ i = 0 := z2_ne_one.1 (fun h => hbt (hb.2 h))
      refine (Ok.pure_iff _ _).2 ⟨hfl, hJ', hT', ?_⟩
      intro r hr1 hr2
      by_cases h : r.val = j
      · have : r = ⟨j, hj2⟩ := Fin.ext h
        simp only; rw [this]; exact h0
      · exact hz r hr1 (by omega)
  · rintro ⟨s', fl⟩ ⟨hfl, hJ', hT', hz⟩
    exact ⟨hT', fun _ => ⟨hJ', fun r hr => hz r hr r.2⟩, fun h => by simp_all⟩
  · rintro ⟨s', fl⟩ ⟨hfl, hT', hJ', hii⟩
    exact ⟨hT', fun h => by simp_all, fun _ => ⟨hJ', hii⟩⟩

/-- The pivot search without a flag. -/
theorem search_spec' (tm : S → Mat n) (J : Nat → S → Prop) (test : Nat → S → C Bool)
    (swp : Nat → S → C S) (i : Fin n) (B : Nat)
    (htest : ∀ s j (hj : j < n), Ok (test j s) (fun b => b = true ↔ tm s ⟨j, hj⟩ i = 1))
    (hswp : ∀ k s j (hj : j < n), i.val < j → k < B → J k s → Tri i.val (tm s) →
      Ok (swp j s) (fun s' => tm s' = swapR i ⟨j, hj⟩ (tm s) ∧ J (k + 1) s'))
    (hmono : ∀ k s, J k s → J (k + 1) s)
    {s : S} {k : Nat} (hk : k < B) (hJ : J k s) (hT : Tri i.val (tm s)) (h0 : tm s i i = 0) :
    Ok (forBrk (i.val + 1) n s fun j s => do
        if ← test j s then
          let s ← swp j s
          pure (.stop s)
        else pure (.next s))
      (fun s' => Tri i.val (tm s') ∧ J (k + 1) s' ∧
        (tm s' i i = 1 ∨ ∀ r : Fin n, i.val < r.val → tm s' r i = 0)) := by
  have hi := i.2
  refine Ok.forBrk (fun j s' => J k s' ∧ Tri i.val (tm s') ∧
      (∀ r : Fin n, i.val ≤ r.val → r.val < j → tm s' r i = 0))
    (fun s' => Tri i.val (tm s') ∧ J (k + 1) s' ∧ tm s' i i = 1)
    (by omega) ?_ ?_ ?_ ?_
  · refine ⟨hJ, hT, ?_⟩
    intro r h1 h2
    have : r = i := Fin.ext (by omega)
    subst this; exact h0
  · rintro j s' hj1 hj2 ⟨hJ', hT', hz⟩
    refine Ok.bind (htest s' j hj2) ?_
    intro b hb
    by_cases hbt : b = true
    · simp only [hbt, if_true]
      have h1 := hb.1 hbt
      refine Ok.bind (hswp k s' j hj2 (by omega) hk hJ' hT') ?_
      rintro s'' ⟨htm, hJ''⟩
      refine (Ok.pure_iff _ _).2 ?_
      refine ⟨?_, hJ'', ?_⟩
      · rw [htm]; exact hT'.swapR (by omega) (by simp; omega)
      · rw [htm]; simp only [swapR, Equiv.swap_apply_left]; exact h1
    · simp only [hbt]
      have h0 : tm s' ⟨j, hj2⟩ i = 0 := z2_ne_one.1 (fun h => hbt (hb.2 h))
      refine (Ok.pure_iff _ _).2 ⟨hJ', hT', ?_⟩
      intro r hr1 hr2
      by_cases h : r.val = j
      · have : r = ⟨j, hj2⟩ := Fin.ext h
        rw [this]; exact h0
      · exact hz r hr1 (by omega)
  · rintro s' ⟨hJ', hT', hz⟩
    exact ⟨hT', hmono _ _ hJ', Or.inr fun r hr => hz r (by omega) r.2⟩
  · rintro s' ⟨hT', hJ', hii⟩
    exact ⟨hT', hJ', Or.inl hii⟩

/-- The back substitution loop `for(j = i - 1; j >= 0; j--) if(bit (j,i)) add row i to row j;`
for an upper unitriangular matrix whose columns `> i` are already cleared. -/
theorem back_spec (tm : S → Mat n) (J : Nat → S → Prop) (test : Nat → S → C Bool)
    (add : Nat → S → C S) (i : Fin n) (B : Nat) (good : Prop)
    (htest : ∀ s j (hj : j < n), Ok (test j s) (fun b => b = true ↔ tm s ⟨j, hj⟩ i = 1))
    (hadd : ∀ k s j (hj : j < n), j < i.val → k < B → J k s →
      Ok (add j s) (fun s' => J (k + 1) s' ∧
        (good → (∀ c, c ≠ i → tm s i c = 0) → tm s' = addR ⟨j, hj⟩ i (tm s))))
    (hmono : ∀ k s, J k s → J (k + 1) s)
    {s : S} {k : Nat} (hk : k + i.val ≤ B) (hJ : J k s)
    (hg : good → Tri n (tm s) ∧ (∀ r, tm s r r = 1) ∧ Upp (i.val + 1) (tm s)) :
    Ok (forDown i.val 0 s fun j s => do if ← test j s then add j s else pure s)
      (fun s' => J (k + i.val) s' ∧
        (good → Tri n (tm s') ∧ (∀ r, tm s' r r = 1) ∧ Upp i.val (tm s'))) := by
  have hi := i.2
  refine Ok.forDown (fun j s' => J (k + (i.val - j)) s' ∧
      (good → Tri n (tm s') ∧ (∀ r, tm s' r r = 1) ∧ Upp (i.val + 1) (tm s') ∧
        ∀ r : Fin n, j ≤ r.val → r.val < i.val → tm s' r i = 0)) (by omega) ?_ ?_ ?_
  · refine ⟨by simpa using hJ, fun g => ?_⟩
    obtain ⟨h1, h2, h3⟩ := hg g
    exact ⟨h1, h2, h3, fun r h1 h2 => by omega⟩
  · rintro j s' hj1 hj2 ⟨hJ', hg'⟩
    have hjn : j < n := by omega
    refine Ok.bind (htest s' j hjn) ?_
    intro b hb
    by_cases hbt : b = true
    · simp only [hbt, if_true]
      have h1 := hb.1 hbt
      refine (hadd _ s' j hjn hj2 (by omega) hJ').mono ?_
      rintro s'' ⟨hJ'', htm⟩
      refine ⟨by rw [show k + (i.val - j) = k + (i.val - (j + 1)) + 1 by omega]; exact hJ'', ?_⟩
      intro g
      obtain ⟨hT, hd, hu, hz⟩ := hg' g
      have hrow : ∀ c, c ≠ i → tm s' i c = 0 := by
        intro c hc
        rcases Nat.lt_trichotomy c.val i.val with h | h | h
        · exact hT i c c.2 h
        · exact absurd (Fin.ext h) hc
        · exact hu i c (by omega) h
      have htm := htm g hrow
      have key : ∀ r c, tm s'' r c = if r = ⟨j, hjn⟩ ∧ c = i then 0 else tm s' r c := by
        intro r c
        rw [htm]; simp only [addR]
        by_cases hr : r = ⟨j, hjn⟩
        · by_cases hc : c = i
          · subst hc; subst hr
            simp [h1, hd, z2_add_self]
          · simp [hr, hc, hrow c hc]
        · simp [hr]
      refine ⟨?_, ?_, ?_, ?_⟩
      · intro r c hc hr
        rw [key]; split
        · rfl
        · exact hT r c hc hr
      · intro r
        rw [key, if_neg]
        · exact hd r
        · rintro ⟨h1, h2⟩; rw [h1] at h2
          have := congrArg Fin.val h2
          simp at this; omega
      · intro r c hc hr
        rw [key]; split
        · rfl
        · exact hu r c hc hr
      · intro r hr1 hr2
        rw [key]; split
        · rfl
        · rename_i hne
          refine hz r ?_ hr2
          have : r.val ≠ j := fun h => hne ⟨Fin.ext h, rfl⟩
          omega
    · simp only [hbt]
      refine (Ok.pure_iff _ _).2 ⟨?_, ?_⟩
      · rw [show k + (i.val - j) = k + (i.val - (j + 1)) + 1 by omega]
        exact hmono _ _ hJ'
      · intro g
        obtain ⟨hT, hd, hu, hz⟩ := hg' g
        refine ⟨hT, hd, hu, ?_⟩
        intro r hr1 hr2
        by_cases h : r.val = j
        · have : r = ⟨j, hjn⟩ := Fin.ext h
          rw [this]
          exact z2_ne_one.1 (fun h => hbt (hb.2 h))
        · exact hz r (by omega) hr2
  · rintro s' ⟨hJ', hg'⟩
    refine ⟨by simpa using hJ', fun g => ?_⟩
    obtain ⟨hT, hd, hu, hz⟩ := hg' g
    refine ⟨hT, hd, ?_⟩
    intro r c hc hr
    by_cases h : c = i
    · subst h; exact hz r (Nat.zero_le _) hr
    · exact hu r c (by have : c.val ≠ i.val := fun e => h (Fin.ext e); omega) hr

end WB
