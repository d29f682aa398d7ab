import Verif.Proof.Gf2Check
import Verif.Proof.RandRun

/-!
# The generator on natural numbers, and the rows of a random matrix
-/
namespace WB
open Matrix

/-- `permuteQPR` on natural numbers (the value is forced by the recursor). -/
noncomputable def permN (x : Nat) : Nat :=
  @Nat.rec (fun _ => Nat) 0 (fun y _ => @Bool.rec (fun _ => Nat)
    (@Bool.rec (fun _ => Nat) (Nat.sub 4294967291 (Nat.mod (Nat.mul (Nat.succ y) (Nat.succ y)) 4294967291))
      (Nat.mod (Nat.mul (Nat.succ y) (Nat.succ y)) 4294967291) (Nat.ble (Nat.succ y) 2147483645))
    (Nat.succ y) (Nat.ble 4294967291 (Nat.succ y))) x

theorem permN_eq (x : Nat) : permN x = if 4294967291 ≤ x then x
    else if x ≤ 2147483645 then x * x % 4294967291 else 4294967291 - x * x % 4294967291 := by
  cases x with
  | zero => rfl
  | succ y =>
    show @Bool.rec (fun _ => Nat) (@Bool.rec (fun _ => Nat) (4294967291 - (y + 1) * (y + 1) % 4294967291)
      ((y + 1) * (y + 1) % 4294967291) (Nat.ble (y + 1) 2147483645)) (y + 1)
      (Nat.ble 4294967291 (y + 1)) = _
    by_cases h1 : 4294967291 ≤ y + 1
    · rw [if_pos h1, Nat.ble_eq_true_of_le h1]
    · rw [if_neg h1, Bool.eq_false_iff.2 fun h => h1 (Nat.le_of_ble_eq_true h)]
      by_cases h2 : y + 1 ≤ 2147483645
      · rw [if_pos h2, Nat.ble_eq_true_of_le h2]
      · rw [if_neg h2, Bool.eq_false_iff.2 fun h => h2 (Nat.le_of_ble_eq_true h)]

theorem permuteQPR_permN (x : BitVec 32) : (permuteQPR x).toNat = permN x.toNat := by
  have hx := x.isLt
  have hr : x.toNat * x.toNat % 4294967291 < 4294967291 := Nat.mod_lt _ (by norm_num)
  have hsq : x.toNat * x.toNat < 2 ^ 64 := by nlinarith
  have hres : ((x.setWidth 64 * x.setWidth 64).umod ((4294967291#32).setWidth 64)).toNat
      = x.toNat * x.toNat % 4294967291 := by
    rw [BitVec.umod_eq, BitVec.toNat_umod, BitVec.toNat_mul, BitVec.toNat_setWidth,
      Nat.mod_eq_of_lt (show x.toNat < 2 ^ 64 by omega), Nat.mod_eq_of_lt hsq]
    rfl
  have hres' : (((x.setWidth 64 * x.setWidth 64).umod ((4294967291#32).setWidth 64)).setWidth 32).toNat
      = x.toNat * x.toNat % 4294967291 := by
    rw [BitVec.toNat_setWidth, hres]
    exact Nat.mod_eq_of_lt (by omega)
  unfold permuteQPR
  rw [permN_eq]
  simp only
  have h1 : (4294967291#32 ≤ x) ↔ 4294967291 ≤ x.toNat := by
    rw [BitVec.le_def]; rfl
  have h2 : (x ≤ (4294967291#32).udiv 2#32) ↔ x.toNat ≤ 2147483645 := by
    rw [BitVec.le_def]; rfl
  by_cases hc : 4294967291 ≤ x.toNat
  · rw [if_pos (h1.2 hc), if_pos hc]
  · rw [if_neg (fun h => hc (h1.1 h)), if_neg hc]
    by_cases hc2 : x.toNat ≤ 2147483645
    · rw [if_pos (h2.2 hc2), if_pos hc2, hres']
    · rw [if_neg (fun h => hc2 (h2.1 h)), if_neg hc2, BitVec.toNat_sub, hres']
      have : (4294967291#32).toNat = 4294967291 := rfl
      rw [this]
      omega

/-- The `k`-th draw after seeding, on natural numbers: `i` is the index, `o` the offset. -/
noncomputable def drawN (i o k : Nat) : Nat :=
  permN (Nat.xor (Nat.mod (Nat.add (permN (Nat.mod (Nat.add i k) 4294967296)) o) 4294967296) 0x5bf03635)

theorem draw_toNat (o i : BitVec 32) (k : Nat) :
    (draw o (i + BitVec.ofNat 32 k)).toNat = drawN i.toNat o.toNat k := by
  unfold draw drawN
  rw [permuteQPR_permN, BitVec.toNat_xor, BitVec.toNat_add, permuteQPR_permN, BitVec.toNat_add,
    BitVec.toNat_ofNat]
  have : (i.toNat + k % 2 ^ 32) % 2 ^ 32 = (i.toNat + k) % 4294967296 := by omega
  rw [this]
  rfl

/-! ## Rows of several words -/

/-- The words one after the other. -/
def catW (acc : Nat) (ws : List (BitVec 64)) : Nat :=
  ws.foldl (fun acc w => 2 ^ 64 * acc + w.toNat) acc

theorem catW_high (ws : List (BitVec 64)) (acc t : Nat) :
    (catW acc ws).testBit (64 * ws.length + t) = acc.testBit t := by
  induction ws generalizing acc t with
  | nil => simp [catW]
  | cons w ws ih =>
    have : catW acc (w :: ws) = catW (2 ^ 64 * acc + w.toNat) ws := rfl
    rw [this, List.length_cons, show 64 * (ws.length + 1) + t = 64 * ws.length + (t + 64) by ring,
      ih, Nat.testBit_two_pow_mul_add _ w.isLt, if_neg (by omega)]
    congr 1

theorem catW_bit (ws : List (BitVec 64)) (acc j : Nat) (hj : j < 64 * ws.length) :
    (catW acc ws).testBit (64 * ws.length - 1 - j) = (ws[j / 64]?.getD 0).getLsbD (63 - j % 64) := by
  induction ws generalizing acc j with
  | nil => simp at hj
  | cons w ws ih =>
    have e : catW acc (w :: ws) = catW (2 ^ 64 * acc + w.toNat) ws := rfl
    rw [List.length_cons] at hj
    rw [e, List.length_cons]
    by_cases hlt : j < 64
    · rw [show 64 * (ws.length + 1) - 1 - j = 64 * ws.length + (63 - j) by omega, catW_high,
        Nat.testBit_two_pow_mul_add _ w.isLt, if_pos (by omega), show j / 64 = 0 by omega,
        show j % 64 = j by omega]
      rfl
    · rw [show 64 * (ws.length + 1) - 1 - j = 64 * ws.length - 1 - (j - 64) by omega,
        ih _ (j - 64) (by omega), show j / 64 = (j - 64) / 64 + 1 by omega,
        show j % 64 = (j - 64) % 64 by omega]
      rfl

theorem bitW_catW {l : Nat} (x : Vector (BitVec 64) l) (j : Nat) (hj : j < 64 * l) :
    bitW x j = (catW 0 x.toList).testBit (64 * l - 1 - j) := by
  have hl : x.toList.length = l := by simp
  have := catW_bit x.toList 0 j (by rw [hl]; exact hj)
  rw [hl] at this
  rw [this]
  unfold bitW
  congr 2
  simp

theorem catW2 (a b : BitVec 64) : catW 0 [a, b] = 18446744073709551616 * a.toNat + b.toNat := by
  unfold catW
  generalize hK : 18446744073709551616 = K
  rw [show 2 ^ 64 = K by rw [← hK]; rfl]
  simp only [List.foldl_cons, List.foldl_nil, Nat.mul_zero, Nat.zero_add]

theorem catW4 (a b c d : BitVec 64) : catW 0 [a, b, c, d] =
    18446744073709551616 * (18446744073709551616 * (18446744073709551616 * a.toNat + b.toNat) + c.toNat) +
      d.toNat := by
  unfold catW
  generalize hK : 18446744073709551616 = K
  rw [show 2 ^ 64 = K by rw [← hK]; rfl]
  simp only [List.foldl_cons, List.foldl_nil, Nat.mul_zero, Nat.zero_add]

/-! ## The two byte orders -/

theorem pair64_cases (env : Env) : (∀ a b, pair64 env a b = a ++ b) ∨ (∀ a b, pair64 env a b = b ++ a) := by
  rcases off_cases env with ⟨h1, h0⟩ | ⟨h1, h0⟩
  · left
    intro a b
    apply BitVec.eq_of_getLsbD_eq
    intro i hi
    unfold pair64
    rw [stRes_bit _ _ _ _ _ hi (by norm_num), stRes_bit _ _ _ _ _ hi (by norm_num), h1, h0,
      BitVec.getLsbD_append]
    by_cases h : i < 32
    · simp [h]
    · rw [if_neg (by omega), if_pos (by omega)]; simp [h]
  · right
    intro a b
    apply BitVec.eq_of_getLsbD_eq
    intro i hi
    unfold pair64
    rw [stRes_bit _ _ _ _ _ hi (by norm_num), stRes_bit _ _ _ _ _ hi (by norm_num), h1, h0,
      BitVec.getLsbD_append]
    by_cases h : i < 32
    · rw [if_neg (by omega), if_pos (by omega)]; simp [h]
    · rw [if_pos (by omega)]; simp [h]

theorem append_toNat (a b : BitVec 32) : (a ++ b).toNat = 2 ^ 32 * a.toNat + b.toNat := by
  rw [BitVec.toNat_append, ← Nat.shiftLeft_add_eq_or_of_lt b.isLt, Nat.shiftLeft_eq, Nat.mul_comm]

/-! ## Matrices from a seed -/

/-- The `k`-th draw after seeding with `s`. -/
def drawS (s : BitVec 32) (k : Nat) : BitVec 32 := draw (seedOff s) (seedIdx s + BitVec.ofNat 32 k)

/-- The `k`-th 64-bit word after seeding with `s`. -/
def wordS (env : Env) (s : BitVec 32) (k : Nat) : BitVec 64 :=
  pair64 env (drawS s (2 * k)) (drawS s (2 * k + 1))

theorem seeded_draw (w : World) (k : Nat) : w.seeded.draw k = drawS (seedOf w) k := rfl

theorem seeded_word (env : Env) (w : World) (k q : Nat) :
    (w.seeded.adv (2 * k)).word env q = wordS env (seedOf w) (k + q) := by
  rw [word_adv]; rfl

theorem drawS_toNat {s : BitVec 32} {i o : Nat} (hi : (seedIdx s).toNat = i) (ho : (seedOff s).toNat = o)
    (k : Nat) : (drawS s k).toNat = drawN i o k := by
  unfold drawS
  rw [draw_toNat, hi, ho]

/-- The `k`-th 64-bit word on natural numbers. -/
noncomputable def wordN (be : Bool) (i o k : Nat) : Nat :=
  @Bool.rec (fun _ => Nat)
    (Nat.add (Nat.mul 4294967296 (drawN i o (Nat.mul 2 k))) (drawN i o (Nat.succ (Nat.mul 2 k))))
    (Nat.add (Nat.mul 4294967296 (drawN i o (Nat.succ (Nat.mul 2 k)))) (drawN i o (Nat.mul 2 k))) be

theorem wordS_cases (env : Env) {s : BitVec 32} {i o : Nat} (hi : (seedIdx s).toNat = i)
    (ho : (seedOff s).toNat = o) : ∃ be, ∀ k, (wordS env s k).toNat = wordN be i o k := by
  rcases pair64_cases env with h | h
  · refine ⟨false, fun k => ?_⟩
    unfold wordS wordN
    rw [h, append_toNat, drawS_toNat hi ho, drawS_toNat hi ho]
    rfl
  · refine ⟨true, fun k => ?_⟩
    unfold wordS wordN
    rw [h, append_toNat, drawS_toNat hi ho, drawS_toNat hi ho]
    rfl

theorem rowsS {n w : Nat} (hn : n ≤ w) (A : Vector (BitVec w) n) (a : Nat → Nat)
    (h : ∀ i : Fin n, ∀ t < n, (A[i]).getLsbD t = (a i).testBit t) : RowsAre (matOf n (bitS n) A) a := by
  intro i j
  show bitF ((A[i]).getLsbD _) = _
  rw [h i _ (by have := j.2; omega)]

theorem rowsW {l n : Nat} (hn : n = 64 * l) (A : Vector (Vector (BitVec 64) l) n) (a : Nat → Nat)
    (h : ∀ i : Fin n, catW 0 (A[i]).toList = a i) : RowsAre (matOf n bitW A) a := by
  subst hn
  intro i j
  show bitF (bitW A[i] j) = _
  rw [bitW_catW _ _ j.2, h i]

/-- The matrix with the given rows (last row first). -/
def matL (n : Nat) (bs : List Nat) : Mat n :=
  fun i j => bitF ((bs.reverse.getD i.val 0).testBit (n - 1 - j.val))

theorem matL_rows (n : Nat) (bs : List Nat) : RowsAre (matL n bs) (fun i => bs.reverse.getD i 0) :=
  fun _ _ => rfl

theorem rows_of_list {n : Nat} (bs : List Nat) (h : bs.length = n) :
    bs = ((List.range n).map fun i => bs.reverse.getD i 0).reverse := by
  subst h
  apply List.reverse_injective
  rw [List.reverse_reverse]
  apply List.ext_getElem
  · simp
  · intro i h1 h2
    rw [List.getElem_map, List.getElem_range, List.getD_eq_getElem?_getD,
      List.getElem?_eq_getElem h1]
    rfl

theorem isUnit_of_check {n : Nat} {A : Mat n} {a : Nat → Nat} {bs : List Nat} (hA : RowsAre A a)
    (hl : bs.length = n) (h : checkInv n a bs = true) : IsUnit A := by
  have := checkInv_ok hA (matL_rows n bs) (rows_of_list bs hl) h
  exact ⟨⟨_, _, this, mat_comm this⟩, rfl⟩

theorem not_isUnit_of_check {n : Nat} {A : Mat n} {a : Nat → Nat} (hA : RowsAre A a) (x k : Nat)
    (hk : k < n) (hx : x.testBit k = true)
    (h : comb ((List.range n).map a).reverse x % 2 ^ n = 0) : ¬ IsUnit A := by
  rw [isUnit_iff_det, checkNull_ok hA rfl x k hk hx h]
  exact zero_ne_one

end WB
