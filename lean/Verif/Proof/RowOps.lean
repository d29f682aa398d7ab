import Verif.Proof.Elim
import Verif.Spec

/-!
# Row operations on the stored representation (helper lemmas)
-/
namespace WB
open Matrix

theorem bitF_xor (a b : Bool) : bitF (a ^^ b) = bitF a + bitF b := by
  cases a <;> cases b <;> decide

theorem bitF_and (a b : Bool) : bitF (a && b) = bitF a * bitF b := by
  cases a <;> cases b <;> decide

@[simp] theorem bitF_eq_one (b : Bool) : bitF b = 1 ↔ b = true := by cases b <;> decide
@[simp] theorem bitF_eq_zero (b : Bool) : bitF b = 0 ↔ b = false := by cases b <;> decide
@[simp] theorem bitF_true : bitF true = 1 := rfl
@[simp] theorem bitF_false : bitF false = 0 := rfl

theorem bitF_inj {a b : Bool} : bitF a = bitF b ↔ a = b := by
  cases a <;> cases b <;> decide

theorem matOf_ext_iff {R : Type} {n : Nat} {bit : R → Nat → Bool} {A : Vector R n}
    {M : Mat n} : matOf n bit A = M ↔ ∀ r c : Fin n, bitF (bit A[r] c) = M r c := by
  constructor
  · rintro rfl r c; rfl
  · intro h; ext r c; exact h r c

/-! ## Single-word rows -/

/-- The unit-row table of a size: row `c` has exactly the bit of column `c`. -/
def IdOK (n : Nat) {w : Nat} (id : Vector (BitVec w) n) : Prop :=
  n ≤ w ∧ ∀ c (h : c < n), id[c] = BitVec.twoPow w (n - 1 - c)

theorem and_twoPow_beq {w : Nat} (x : BitVec w) (k : Nat) (hk : k < w) :
    (x &&& BitVec.twoPow w k == BitVec.twoPow w k) = x.getLsbD k := by
  rw [BitVec.and_twoPow]
  cases h : x.getLsbD k
  · simp only [Bool.false_eq_true, if_false, beq_eq_false_iff_ne, ne_eq]
    intro h0
    have := congrArg (fun y => y.getLsbD k) h0
    simp [hk] at this
  · simp

theorem Ok_hasBit {w n m : Nat} {A : Vector (BitVec w) n} {id : Vector (BitVec w) m}
    (hid : IdOK m id) {r c : Nat} (hr : r < n) (hc : c < m) :
    Ok (hasBit A r id c) (fun b => b = bitS m A[r] c) := by
  unfold hasBit
  simp only [Ok.bind_iff, Ok_rd, Ok.pure_iff]
  refine ⟨hr, hc, ?_⟩
  have := hid.1
  rw [hid.2 c hc, and_twoPow_beq _ _ (by omega)]; rfl

theorem bitS_xor (n : Nat) {w : Nat} (x y : BitVec w) (j : Nat) :
    bitS n (x ^^^ y) j = (bitS n x j ^^ bitS n y j) := by simp [bitS]

theorem Ok_xorRow {w n : Nat} {A : Vector (BitVec w) n} {j i : Nat} (hj : j < n) (hi : i < n) :
    Ok (xorRow A j i) (fun A' => A' = A.set j (A[j] ^^^ A[i])) := by
  unfold xorRow
  simp [hj, hi]

theorem matOf_xorRow {w n : Nat} (A : Vector (BitVec w) n) (j i : Fin n) :
    matOf n (bitS n) (A.set j.val (A[j.val] ^^^ A[i.val])) = addR j i (matOf n (bitS n) A) := by
  rw [matOf_ext_iff]
  intro r c
  simp only [addR, matOf, Fin.getElem_fin, Vector.getElem_set]
  by_cases h : r = j
  · subst h; simp [bitS_xor, bitF_xor]
  · have : j.val ≠ r.val := fun e => h (Fin.ext e.symm)
    simp [h, this]

theorem Ok_swapRow {w n : Nat} {A : Vector (BitVec w) n} {i j : Nat} (hi : i < n) (hj : j < n) :
    Ok (swapRow A i j) (fun A' => A' = (A.set i A[j]).set j A[i]) := by
  unfold swapRow
  simp [hj, hi]

theorem matOf_swapRow {R : Type} {n : Nat} (bit : R → Nat → Bool) (A : Vector R n)
    (i j : Fin n) :
    matOf n bit ((A.set i.val A[j.val]).set j.val A[i.val]) = swapR i j (matOf n bit A) := by
  rw [matOf_ext_iff]
  intro r c
  simp only [swapR, matOf, Fin.getElem_fin, Vector.getElem_set, Equiv.swap_apply_def]
  by_cases h : j.val = r.val
  · have h' : j = r := Fin.ext h
    subst h'
    by_cases h2 : j = i
    · subst h2; simp
    · simp [h2]
  · have h' : r ≠ j := fun e => h (by rw [e])
    by_cases h2 : i.val = r.val
    · have h3 : i = r := Fin.ext h2
      subst h3; simp [h]
    · have h3 : r ≠ i := fun e => h2 (by rw [e])
      simp [h, h', h2, h3]

/-! ## Rows made of several words -/

theorem Ok_rd2 {α : Type} {n m : Nat} (a : Vector (Vector α m) n) (i k : Nat) (Q : α → Prop) :
    Ok (rd2 a i k) Q ↔ ∃ (h : i < n) (h' : k < m), Q a[i][k] := by
  unfold rd2; simp

theorem Ok_wr2 {α : Type} {n m : Nat} (a : Vector (Vector α m) n) (i k : Nat) (x : α)
    (Q : Vector (Vector α m) n → Prop) :
    Ok (wr2 a i k x) Q ↔ ∃ (h : i < n) (h' : k < m), Q (a.set i (a[i].set k x)) := by
  unfold wr2
  simp only [Ok.bind_iff, Ok_rd, Ok_wr]
  constructor
  · rintro ⟨h, h', h2, hq⟩; exact ⟨h, h', hq⟩
  · rintro ⟨h, h', hq⟩; exact ⟨h, h', h, hq⟩

section Words
variable {w n l : Nat}

theorem getElem_set2 {α : Type} {n m : Nat} (a : Vector (Vector α m) n) (i k r t : Nat)
    (hi : i < n) (hk : k < m) (x : α) (hr : r < n) (ht : t < m) :
    (a.set i (a[i].set k x))[r][t] = if r = i ∧ t = k then x else a[r][t] := by
  by_cases h : i = r
  · subst h
    by_cases h2 : k = t
    · subst h2; simp
    · have : ¬ t = k := fun e => h2 e.symm
      simp [h2, this]
  · have : ¬ r = i := fun e => h e.symm
    simp [h, this]

theorem Ok_xorWords (ks : List Nat) (A : Vector (Vector (BitVec w) l) n) {j i : Nat}
    (hj : j < n) (hi : i < n) (hji : j ≠ i) (hks : ∀ k ∈ ks, k < l) (hnd : ks.Nodup) :
    Ok (xorWords ks A j i) (fun A' => ∀ r (hr : r < n) t (ht : t < l),
      A'[r][t] = if r = j ∧ t ∈ ks then A[j][t] ^^^ A[i][t] else A[r][t]) := by
  unfold xorWords
  induction ks generalizing A with
  | nil => simp
  | cons k ks ih =>
    simp only [List.foldlM_cons]
    have hk : k < l := hks k (by simp)
    unfold xorRow2 at ih ⊢
    simp only [Ok.bind_iff, Ok_rd2, Ok_wr2]
    refine ⟨hj, hk, hi, hk, hj, hk, ?_⟩
    refine (ih _ (fun k hk => hks k (by simp [hk])) (List.nodup_cons.1 hnd).2).mono ?_
    intro A' h r hr t ht
    rw [h r hr t ht]
    simp only [getElem_set2 _ _ _ _ _ hj hk _ _ ht, List.mem_cons]
    have hnk := (List.nodup_cons.1 hnd).1
    by_cases h1 : r = j
    · subst h1
      by_cases h2 : t = k
      · subst h2; simp [hnk]
      · simp [h2, hji.symm]
    · simp [h1]

theorem Ok_swapWords (ks : List Nat) (A : Vector (Vector (BitVec w) l) n) {i j : Nat}
    (hi : i < n) (hj : j < n) (hji : i ≠ j) (hks : ∀ k ∈ ks, k < l) (hnd : ks.Nodup) :
    Ok (swapWords ks A i j) (fun A' => ∀ r (hr : r < n) t (ht : t < l),
      A'[r][t] = if t ∈ ks then (if r = i then A[j][t] else if r = j then A[i][t] else A[r][t])
        else A[r][t]) := by
  unfold swapWords
  induction ks generalizing A with
  | nil => simp
  | cons k ks ih =>
    simp only [List.foldlM_cons]
    have hk : k < l := hks k (by simp)
    unfold swapRow2 at ih ⊢
    simp only [Ok.bind_iff, Ok_rd2, Ok_wr2]
    refine ⟨hi, hk, hj, hk, hi, hk, hj, hk, ?_⟩
    refine (ih _ (fun k hk => hks k (by simp [hk])) (List.nodup_cons.1 hnd).2).mono ?_
    intro A' h r hr t ht
    rw [h r hr t ht]
    simp only [getElem_set2 _ _ _ _ _ hj hk _ _ ht, getElem_set2 _ _ _ _ _ hi hk _ _ ht,
      List.mem_cons]
    have hnk := (List.nodup_cons.1 hnd).1
    by_cases h2 : t = k
    · subst h2
      simp only [hnk, if_false, true_or, if_true]
      by_cases h1 : r = j
      · subst h1; simp [Ne.symm hji]
      · simp [h1]
    · simp [h2]

end Words

theorem bitW_eq {l : Nat} (x : Vector (BitVec 64) l) (j : Nat) (hj : j / 64 < l) :
    bitW x j = x[j / 64].getLsbD (63 - j % 64) := by
  simp [bitW, hj]

theorem bitW_congr {l : Nat} {x y : Vector (BitVec 64) l} {j : Nat} (hj : j / 64 < l)
    (h : x[j / 64] = y[j / 64]) : bitW x j = bitW y j := by
  rw [bitW_eq _ _ hj, bitW_eq _ _ hj, h]

theorem bitW_xor {l : Nat} {x y z : Vector (BitVec 64) l} {j : Nat} (hj : j / 64 < l)
    (h : z[j / 64] = x[j / 64] ^^^ y[j / 64]) : bitW z j = (bitW x j ^^ bitW y j) := by
  rw [bitW_eq _ _ hj, bitW_eq _ _ hj, bitW_eq _ _ hj, h]; simp

theorem Ok_hasBit2 {n l : Nat} {A : Vector (Vector (BitVec 64) l) n}
    {id : Vector (BitVec 64) 64} (hid : IdOK 64 id) {r k c : Nat} (hr : r < n) (hk : k < l)
    (hc : c < 64) :
    Ok (hasBit2 A r k id c) (fun b => b = bitW A[r] (64 * k + c)) := by
  unfold hasBit2
  simp only [Ok.bind_iff, Ok_rd2, Ok_rd, Ok.pure_iff]
  refine ⟨hr, hk, hc, ?_⟩
  rw [hid.2 c hc, and_twoPow_beq _ _ (by omega)]
  have h1 : (64 * k + c) / 64 = k := by omega
  have h2 : (64 * k + c) % 64 = c := by omega
  rw [bitW_eq _ _ (by omega)]
  simp [h1, h2]

/-! ## The operations used by one elimination phase -/

/-- The row operations of one phase of an elimination: `test i A j` is the test of bit
`(j, i)`; `addP`, `swpP` act on the matrix being eliminated in the forward pass, `addB` in
the backward pass; `addF`, `swpF` act on the accumulated inverse. -/
structure Ops (α : Type) where
  test : Nat → α → Nat → C Bool
  addP : Nat → α → Nat → C α
  swpP : Nat → α → Nat → Nat → C α
  addB : Nat → α → Nat → C α
  addF : α → Nat → Nat → C α
  swpF : α → Nat → Nat → C α

/-- The operations act as row operations on the denoted matrices, for pivots in `[lo, hi)`;
`G` is an additional property that they preserve. -/
structure OpsOK {α : Type} (n : Nat) (O : Ops α) (m : α → Mat n) (G : α → Prop)
    (lo hi : Nat) : Prop where
  test : ∀ (i j : Fin n) A, lo ≤ i.val → i.val < hi →
    Ok (O.test i A j) (fun b => b = true ↔ m A j i = 1)
  addP : ∀ (i j : Fin n) A, lo ≤ i.val → i.val < hi → i.val < j.val → Tri i.val (m A) →
    Ok (O.addP i A j) (fun A' => m A' = addR j i (m A) ∧ (G A → G A'))
  swpP : ∀ (i a b : Fin n) A, lo ≤ i.val → i.val < hi → i.val ≤ a.val → i.val ≤ b.val →
    a ≠ b → Tri i.val (m A) →
    Ok (O.swpP i A a b) (fun A' => m A' = swapR a b (m A) ∧ (G A → G A'))
  addB : ∀ (i j : Fin n) A, lo ≤ i.val → i.val < hi → j.val < i.val →
    Ok (O.addB i A j) (fun A' => (∀ c, c ≠ i → m A i c = 0) → m A' = addR j i (m A))
  addF : ∀ (j i : Fin n) A, j ≠ i →
    Ok (O.addF A j i) (fun A' => m A' = addR j i (m A) ∧ (G A → G A'))
  swpF : ∀ (i j : Fin n) A, i ≠ j →
    Ok (O.swpF A i j) (fun A' => m A' = swapR i j (m A) ∧ (G A → G A'))

/-- Operations on single-word rows. -/
def opsS {w n : Nat} (id : Vector (BitVec w) n) : Ops (Vector (BitVec w) n) where
  test i A j := hasBit A j id i
  addP i A j := xorRow A j i
  swpP _ A a b := swapRow A a b
  addB i A j := xorRow A j i
  addF A j i := xorRow A j i
  swpF A i j := swapRow A i j

theorem opsS_ok {w n : Nat} (id : Vector (BitVec w) n) (hid : IdOK n id) :
    OpsOK n (opsS id) (matOf n (bitS n)) (fun _ => True) 0 n where
  test i j A _ _ := by
    refine (Ok_hasBit hid j.2 i.2).mono ?_
    rintro b rfl
    simp [matOf]
  addP i j A _ _ _ _ := by
    refine (Ok_xorRow j.2 i.2).mono ?_
    rintro A' rfl
    exact ⟨matOf_xorRow A j i, fun _ => trivial⟩
  swpP i a b A _ _ _ _ _ _ := by
    refine (Ok_swapRow a.2 b.2).mono ?_
    rintro A' rfl
    exact ⟨matOf_swapRow _ A a b, fun _ => trivial⟩
  addB i j A _ _ _ := by
    refine (Ok_xorRow j.2 i.2).mono ?_
    rintro A' rfl _
    exact matOf_xorRow A j i
  addF j i A _ := by
    refine (Ok_xorRow j.2 i.2).mono ?_
    rintro A' rfl
    exact ⟨matOf_xorRow A j i, fun _ => trivial⟩
  swpF i j A _ := by
    refine (Ok_swapRow i.2 j.2).mono ?_
    rintro A' rfl
    exact ⟨matOf_swapRow _ A i j, fun _ => trivial⟩

theorem Clean4.xor {x y : BitVec 8} (hx : Clean4 x) (hy : Clean4 y) : Clean4 (x ^^^ y) := by
  unfold Clean4 at *
  rw [BitVec.toNat_xor]
  exact Nat.xor_lt_two_pow (n := 4) hx hy

theorem CleanM4.set {A : M4} (h : CleanM4 A) {x : BitVec 8} (hx : Clean4 x) (i : Nat)
    (hi : i < 4) : CleanM4 (Vector.set A i x hi : M4) := by
  intro r
  simp only [Fin.getElem_fin, Vector.getElem_set]
  split
  · exact hx
  · exact h r

theorem opsS_ok4 (id : Vector (BitVec 8) 4) (hid : IdOK 4 id) :
    OpsOK 4 (opsS id) (matOf 4 (bitS 4)) CleanM4 0 4 where
  test := (opsS_ok id hid).test
  addP i j A _ _ _ _ := by
    refine (Ok_xorRow j.2 i.2).mono ?_
    rintro A' rfl
    exact ⟨matOf_xorRow A j i, fun h => h.set ((h j).xor (h i)) _ _⟩
  swpP i a b A _ _ _ _ _ _ := by
    refine (Ok_swapRow a.2 b.2).mono ?_
    rintro A' rfl
    exact ⟨matOf_swapRow _ A a b, fun h => (h.set (h b) _ _).set (h a) _ _⟩
  addB := (opsS_ok id hid).addB
  addF j i A _ := by
    refine (Ok_xorRow j.2 i.2).mono ?_
    rintro A' rfl
    exact ⟨matOf_xorRow A j i, fun h => h.set ((h j).xor (h i)) _ _⟩
  swpF i j A _ := by
    refine (Ok_swapRow i.2 j.2).mono ?_
    rintro A' rfl
    exact ⟨matOf_swapRow _ A i j, fun h => (h.set (h j) _ _).set (h i) _ _⟩

/-- Operations on rows of `l` words in phase `p`: the forward pass touches the words `ks`
of the matrix being eliminated, the backward pass only word `p`, and the inverse is always
updated in all words `full`. -/
def opsW {n l : Nat} (id : Vector (BitVec 64) 64) (p off : Nat) (ks full : List Nat) :
    Ops (Vector (Vector (BitVec 64) l) n) where
  test i A j := hasBit2 A j p id (i - off)
  addP i A j := xorWords ks A j i
  swpP _ A a b := swapWords ks A a b
  addB i A j := xorWords [p] A j i
  addF A j i := xorWords full A j i
  swpF A i j := swapWords full A i j

theorem matW_add {n l : Nat} (hn : n = 64 * l) {A A' : Vector (Vector (BitVec 64) l) n}
    {ks : List Nat} {j i : Fin n}
    (h : ∀ r (hr : r < n) t (ht : t < l),
      A'[r][t] = if r = j.val ∧ t ∈ ks then A[j.val][t] ^^^ A[i.val][t] else A[r][t])
    (hz : ∀ c : Fin n, c.val / 64 ∉ ks → matOf n bitW A i c = 0) :
    matOf n bitW A' = addR j i (matOf n bitW A) := by
  rw [matOf_ext_iff]
  intro r c
  have hc : c.val / 64 < l := by have := c.2; omega
  have hA := h r.val r.2 (c.val / 64) hc
  simp only [addR, Fin.getElem_fin]
  by_cases hr : r = j
  · subst hr
    simp only [true_and] at hA
    rw [if_pos rfl]
    by_cases hk : c.val / 64 ∈ ks
    · rw [if_pos hk] at hA
      rw [bitW_xor hc hA, bitF_xor]; rfl
    · rw [if_neg hk] at hA
      rw [bitW_congr hc hA, hz c hk, add_zero]; rfl
  · have : r.val ≠ j.val := fun e => hr (Fin.ext e)
    rw [if_neg (by simp [this])] at hA
    rw [if_neg hr, bitW_congr hc hA]; rfl

theorem matW_swap {n l : Nat} (hn : n = 64 * l) {A A' : Vector (Vector (BitVec 64) l) n}
    {ks : List Nat} {i j : Fin n}
    (h : ∀ r (hr : r < n) t (ht : t < l),
      A'[r][t] = if t ∈ ks then
        (if r = i.val then A[j.val][t] else if r = j.val then A[i.val][t] else A[r][t])
        else A[r][t])
    (hz : ∀ c : Fin n, c.val / 64 ∉ ks → matOf n bitW A i c = 0 ∧ matOf n bitW A j c = 0) :
    matOf n bitW A' = swapR i j (matOf n bitW A) := by
  rw [matOf_ext_iff]
  intro r c
  have hc : c.val / 64 < l := by have := c.2; omega
  have hA := h r.val r.2 (c.val / 64) hc
  simp only [swapR, Fin.getElem_fin, Equiv.swap_apply_def]
  by_cases hk : c.val / 64 ∈ ks
  · rw [if_pos hk] at hA
    by_cases hi : r = i
    · subst hi
      rw [if_pos rfl] at hA ⊢
      rw [bitW_congr hc hA]; rfl
    · have : r.val ≠ i.val := fun e => hi (Fin.ext e)
      rw [if_neg this] at hA
      rw [if_neg hi]
      by_cases hj : r = j
      · subst hj
        rw [if_pos rfl] at hA ⊢
        rw [bitW_congr hc hA]; rfl
      · have : r.val ≠ j.val := fun e => hj (Fin.ext e)
        rw [if_neg this] at hA
        rw [if_neg hj, bitW_congr hc hA]; rfl
  · rw [if_neg hk] at hA
    obtain ⟨h1, h2⟩ := hz c hk
    rw [bitW_congr hc hA]
    by_cases hi : r = i
    · subst hi
      rw [if_pos rfl, h2]; exact h1
    · rw [if_neg hi]
      by_cases hj : r = j
      · subst hj
        rw [if_pos rfl, h1]; exact h2
      · rw [if_neg hj]; rfl

theorem opsW_ok {n l : Nat} (hn : n = 64 * l) (id : Vector (BitVec 64) 64) (hid : IdOK 64 id)
    (p off : Nat) (ks full : List Nat) (hp : p < l) (hoff : off = 64 * p)
    (hks : ∀ k, k ∈ ks ↔ p ≤ k ∧ k < l) (hnd : ks.Nodup)
    (hfull : ∀ k, k ∈ full ↔ k < l) (hnf : full.Nodup) :
    OpsOK n (opsW (n := n) (l := l) id p off ks full) (matOf n bitW) (fun _ => True)
      off (off + 64) where
  test i j A h1 h2 := by
    refine (Ok_hasBit2 hid j.2 hp (by omega)).mono ?_
    rintro b rfl
    rw [show 64 * p + (i.val - off) = i.val by omega]
    simp [matOf]
  addP i j A h1 h2 hij hT := by
    refine (Ok_xorWords ks A j.2 i.2 (by omega) (fun k hk => ((hks k).1 hk).2) hnd).mono ?_
    intro A' h
    refine ⟨matW_add hn h ?_, fun _ => trivial⟩
    intro c hc
    rw [hks] at hc
    have := c.2
    exact hT i c (by omega) (by omega)
  swpP i a b A h1 h2 ha hb hab hT := by
    refine (Ok_swapWords ks A a.2 b.2 (fun e => hab (Fin.ext e))
      (fun k hk => ((hks k).1 hk).2) hnd).mono ?_
    intro A' h
    refine ⟨matW_swap hn h ?_, fun _ => trivial⟩
    intro c hc
    rw [hks] at hc
    have := c.2
    exact ⟨hT a c (by omega) (by omega), hT b c (by omega) (by omega)⟩
  addB i j A h1 h2 hij := by
    refine (Ok_xorWords [p] A j.2 i.2 (by omega) (by simpa using hp) (by simp)).mono ?_
    intro A' h hz
    refine matW_add hn h ?_
    intro c hc
    refine hz c ?_
    rintro rfl
    simp at hc; omega
  addF j i A hij := by
    refine (Ok_xorWords full A j.2 i.2 (fun e => hij (Fin.ext e))
      (fun k hk => (hfull k).1 hk) hnf).mono ?_
    intro A' h
    refine ⟨matW_add hn h ?_, fun _ => trivial⟩
    intro c hc
    rw [hfull] at hc
    have := c.2
    omega
  swpF i j A hij := by
    refine (Ok_swapWords full A i.2 j.2 (fun e => hij (Fin.ext e))
      (fun k hk => (hfull k).1 hk) hnf).mono ?_
    intro A' h
    refine ⟨matW_swap hn h ?_, fun _ => trivial⟩
    intro c hc
    rw [hfull] at hc
    have := c.2
    omega

theorem idOK4 : IdOK 4 idM4 := by unfold IdOK; decide
theorem idOK8 : IdOK 8 idM8 := by unfold IdOK; decide
theorem idOK16 : IdOK 16 idM16 := by unfold IdOK; decide
theorem idOK32 : IdOK 32 idM32 := by unfold IdOK; decide
theorem idOK64 : IdOK 64 idM64 := by unfold IdOK; decide +kernel

end WB
