import Verif.Proof.AESGen

/-!
# The mixing bijections of the white-box AES demo (helper lemmas)
-/
namespace WB.aes
open AES (State)
open SM4 (word byte)
open wbsm4 (rd3 wr3 placed word_placed)

attribute [local irreducible] AES.S lin gfMul

theorem wr3x4_get {n : Nat} (a : Vector (Vector (Vector (BitVec 32) 256) 16) n) {i j x : Nat} (hi : i < n) (hj : j < 4)
    (hx : x < 256) (v0 v1 v2 v3 : BitVec 32) :
    ∃ a1 a2 a3 a4, wr3 a i (4 * j + 0) x v0 = .ok a1 ∧ wr3 a1 i (4 * j + 1) x v1 = .ok a2 ∧
      wr3 a2 i (4 * j + 2) x v2 = .ok a3 ∧ wr3 a3 i (4 * j + 3) x v3 = .ok a4 ∧
      ∀ p q r, p < n → q < 16 → r < 256 → ((a4[p]!)[q]!)[r]! = if p = i ∧ q / 4 = j ∧ r = x then
        (if q % 4 = 0 then v0 else if q % 4 = 1 then v1 else if q % 4 = 2 then v2 else v3) else ((a[p]!)[q]!)[r]! := by
  obtain ⟨a1, h1, g1⟩ := wr3_get a (i := i) (k := 4 * j + 0) (t := x) hi (by omega) hx v0
  obtain ⟨a2, h2, g2⟩ := wr3_get a1 (i := i) (k := 4 * j + 1) (t := x) hi (by omega) hx v1
  obtain ⟨a3, h3, g3⟩ := wr3_get a2 (i := i) (k := 4 * j + 2) (t := x) hi (by omega) hx v2
  obtain ⟨a4, h4, g4⟩ := wr3_get a3 (i := i) (k := 4 * j + 3) (t := x) hi (by omega) hx v3
  refine ⟨a1, a2, a3, a4, h1, h2, h3, h4, ?_⟩
  intro p q r hp hq hr
  rw [g4 p q r hp hq hr, g3 p q r hp hq hr, g2 p q r hp hq hr, g1 p q r hp hq hr]
  by_cases c : p = i ∧ q / 4 = j ∧ r = x
  · rw [if_pos c]
    by_cases c0 : q % 4 = 0
    · rw [if_pos c0, if_neg (by omega), if_neg (by omega), if_neg (by omega), if_pos (by omega)]
    · by_cases c1 : q % 4 = 1
      · rw [if_neg c0, if_pos c1, if_neg (by omega), if_neg (by omega), if_pos (by omega)]
      · by_cases c2 : q % 4 = 2
        · rw [if_neg c0, if_neg c1, if_pos c2, if_neg (by omega), if_pos (by omega)]
        · rw [if_neg c0, if_neg c1, if_neg c2, if_pos (by omega)]
  · rw [if_neg c, if_neg (by omega), if_neg (by omega), if_neg (by omega), if_neg (by omega)]

theorem fillBijIn_ok {lib : Lib} (hl : LibOk lib) (m : Mixing) (i j : Nat) (hi : i < 9) (hj : j < 4)
    (t : Vector (Vector (Vector (BitVec 32) 256) 16) 10) :
    Ok (fillBijIn lib m i j t) (fun t => ∀ d x, d < 4 → x < 256 → ((t[i]!)[4 * j + d]!)[x]! = BitVec.ofNat 32 x) := by
  unfold fillBijIn
  refine Ok.forUp (fun n (t : Vector (Vector (Vector (BitVec 32) 256) 16) 10) => ∀ d x, d < 4 → x < 256 → x < n →
    ((t[i]!)[4 * j + d]!)[x]! = BitVec.ofNat 32 x) (by omega) (by omega) ?_ (fun t h d x hd hx => h d x hd hx hx)
  intro n t _ hn h
  rw [if_pos hi]
  simp only [rd3_get m.mb_8x8 (show i < 10 by omega) (show 4 * j + 0 < 16 by omega) (show 0 < 2 by omega),
    rd3_get m.mb_8x8 (show i < 10 by omega) (show 4 * j + 1 < 16 by omega) (show 0 < 2 by omega),
    rd3_get m.mb_8x8 (show i < 10 by omega) (show 4 * j + 2 < 16 by omega) (show 0 < 2 by omega),
    rd3_get m.mb_8x8 (show i < 10 by omega) (show 4 * j + 3 < 16 by omega) (show 0 < 2 by omega), C_pure_bind, hl.u8]
  obtain ⟨a1, a2, a3, a4, h1, h2, h3, h4, ga⟩ := wr3x4_get t (show i < 10 by omega) hj hn
    ((lin (((m.mb_8x8[i]!)[4 * j + 0]!)[0]!) (BitVec.ofNat 8 n)).setWidth 32)
    ((lin (((m.mb_8x8[i]!)[4 * j + 1]!)[0]!) (BitVec.ofNat 8 n)).setWidth 32)
    ((lin (((m.mb_8x8[i]!)[4 * j + 2]!)[0]!) (BitVec.ofNat 8 n)).setWidth 32)
    ((lin (((m.mb_8x8[i]!)[4 * j + 3]!)[0]!) (BitVec.ofNat 8 n)).setWidth 32)
  obtain ⟨b1, b2, b3, b4, k1, k2, k3, k4, gb⟩ := wr3x4_get a4 (show i < 10 by omega) hj hn
    (BitVec.ofNat 32 n) (BitVec.ofNat 32 n) (BitVec.ofNat 32 n) (BitVec.ofNat 32 n)
  rw [h1, C_pure_bind, h2, C_pure_bind, h3, C_pure_bind, h4, C_pure_bind, k1, C_pure_bind, k2, C_pure_bind, k3,
    C_pure_bind, k4, Ok.ok_iff]
  intro d x hd hx hxn
  rw [gb i _ x (by omega) (by omega) hx]
  by_cases c : x = n
  · rw [if_pos (by omega), c]
    simp only [ite_self]
  · rw [if_neg (by omega), ga i _ x (by omega) (by omega) hx, if_neg (by omega)]
    exact h d x hd hx (by omega)

theorem byte_eq (aa : BitVec 32) (d : Nat) (hd : d < 4) :
    (aa >>> (24 - 8 * d) &&& 0xff) = (byte aa d).setWidth 32 := by
  unfold byte
  apply BitVec.eq_of_getLsbD_eq
  intro i hi
  have hm : (0xff : BitVec 32).getLsbD i = decide (i < 8) := by
    have : ∀ i : Fin 32, (0xff : BitVec 32).getLsbD i = decide (i.val < 8) := by decide
    exact this ⟨i, hi⟩
  simp only [BitVec.getLsbD_and, BitVec.getLsbD_ushiftRight, hm, BitVec.getLsbD_setWidth, BitVec.getLsbD_extractLsb', hi,
    decide_true, Bool.true_and]
  rw [Bool.and_comm]

theorem bijWord_eq (T : Tables) (i j : Nat) (hi : i < 9) (hj : j < 4)
    (h : ∀ d x, d < 4 → x < 256 → ((T.mixBijIn[i]!)[4 * j + d]!)[x]! = BitVec.ofNat 32 x) (aa : BitVec 32) :
    bijWord T i j aa = .ok aa := by
  unfold bijWord
  have hb : ∀ d, d < 4 → (rd3 T.mixBijIn i (4 * j + d) (aa >>> (24 - 8 * d) &&& 0xff).toNat) =
      .ok ((byte aa d).setWidth 32) := by
    intro d hd
    rw [byte_eq aa d hd]
    generalize byte aa d = y
    have e : (y.setWidth 32).toNat = y.toNat := by simp; omega
    rw [e, rd3_get T.mixBijIn (by omega) (by omega) y.isLt, h d _ hd y.isLt, xi_eq _ y.isLt, ofNat_toNat8]
  rw [hb 0 (by omega), C_pure_bind, hb 1 (by omega), C_pure_bind, hb 2 (by omega), C_pure_bind, hb 3 (by omega),
    C_pure_bind, BitVec.shiftLeft_zero, word_or, sm4.word_byte]
  rfl

/-- Content of the boxes during the second phase; `v p q r` tells which entries have been replaced. -/
structure MixInv (k : Nat → State) (m : Mixing) (v : Nat → Nat → Nat → Prop) [∀ p q r, Decidable (v p q r)]
    (T : Tables) : Prop where
  tyi : GoodTyi T
  box : ∀ a b c, a < 10 → b < 16 → c < 256 → ((T.TBoxes[a]!)[b]!)[c]! = bx k a b c ^^^ (if a = 9 then (k 10)[b]! else 0)
  boxes : ∀ p q r, p < 9 → q < 16 → r < 256 → ((T.TyiBoxes[p]!)[q]!)[r]! =
    if v p (q / 4) r then lin (((m.mb_32x32[p]!)[q / 4]!)[0]!) (Tyi (q % 4) (bx k p q r)) else Tyi (q % 4) (bx k p q r)
  out : ∀ p q r, p < 9 → q < 16 → r < 256 → v p (q / 4) r →
    ((T.mixBijOut[p]!)[q]!)[r]! = lin (((m.mb_32x32[p]!)[q / 4]!)[1]!) (placed (q % 4) (BitVec.ofNat 8 r))

theorem MixInv.congr {k : Nat → State} {m : Mixing} {v v' : Nat → Nat → Nat → Prop} [∀ p q r, Decidable (v p q r)]
    [∀ p q r, Decidable (v' p q r)] {T : Tables} (h : MixInv k m v T)
    (hv : ∀ p q r, p < 9 → q < 4 → r < 256 → (v' p q r ↔ v p q r)) : MixInv k m v' T where
  tyi := h.tyi
  box := h.box
  boxes p q r hp hq hr := by
    rw [h.boxes p q r hp hq hr]
    simp only [hv p (q / 4) r hp (by omega) hr]
  out p q r hp hq hr hh := h.out p q r hp hq hr ((hv p (q / 4) r hp (by omega) hr).1 hh)

theorem mixBox_ok {lib : Lib} (hl : LibOk lib) (m : Mixing) (k : Nat → State)
    (v : Nat → Nat → Nat → Prop) [∀ p q r, Decidable (v p q r)] (i j x : Nat) (hi : i < 9) (hj : j < 4) (hx : x < 256)
    (T : Tables) (h : MixInv k m v T) (hv : ¬ v i j x)
    (hin : ∀ d x, d < 4 → x < 256 → ((T.mixBijIn[i]!)[4 * j + d]!)[x]! = BitVec.ofNat 32 x) :
    Ok (mixBox lib m i j x T) (fun T' => T'.mixBijIn = T.mixBijIn ∧
      MixInv k m (fun p q r => v p q r ∨ (p = i ∧ q = j ∧ r = x)) T') := by
  unfold mixBox
  rw [if_pos hi]
  have hi10 : i < 10 := by omega
  simp only [rd3_get T.TyiBoxes hi (show 4 * j + 0 < 16 by omega) hx, rd3_get T.TyiBoxes hi (show 4 * j + 1 < 16 by omega) hx,
    rd3_get T.TyiBoxes hi (show 4 * j + 2 < 16 by omega) hx, rd3_get T.TyiBoxes hi (show 4 * j + 3 < 16 by omega) hx,
    C_pure_bind, rd3_get m.mb_32x32 hi10 hj (show 0 < 2 by omega), rd3_get m.mb_32x32 hi10 hj (show 1 < 2 by omega), hl.u32,
    bijWord_eq T i j hi hj hin]
  have hold : ∀ d, d < 4 → ((T.TyiBoxes[i]!)[4 * j + d]!)[x]! = Tyi d (bx k i (4 * j + d) x) := by
    intro d hd
    rw [h.boxes i _ x hi (by omega) hx, show (4 * j + d) / 4 = j by omega, show (4 * j + d) % 4 = d by omega, if_neg hv]
  rw [hold 0 (by omega), hold 1 (by omega), hold 2 (by omega), hold 3 (by omega)]
  obtain ⟨a1, a2, a3, a4, h1, h2, h3, h4, ga⟩ := wr3x4_get T.TyiBoxes hi hj hx
    (lin (((m.mb_32x32[i]!)[j]!)[0]!) (Tyi 0 (bx k i (4 * j + 0) x)))
    (lin (((m.mb_32x32[i]!)[j]!)[0]!) (Tyi 1 (bx k i (4 * j + 1) x)))
    (lin (((m.mb_32x32[i]!)[j]!)[0]!) (Tyi 2 (bx k i (4 * j + 2) x)))
    (lin (((m.mb_32x32[i]!)[j]!)[0]!) (Tyi 3 (bx k i (4 * j + 3) x)))
  obtain ⟨o1, o2, o3, o4, k1, k2, k3, k4, go⟩ := wr3x4_get T.mixBijOut hi10 hj hx
    (lin (((m.mb_32x32[i]!)[j]!)[1]!) (BitVec.ofNat 32 x <<< 24))
    (lin (((m.mb_32x32[i]!)[j]!)[1]!) (BitVec.ofNat 32 x <<< 16))
    (lin (((m.mb_32x32[i]!)[j]!)[1]!) (BitVec.ofNat 32 x <<< 8))
    (lin (((m.mb_32x32[i]!)[j]!)[1]!) (BitVec.ofNat 32 x <<< 0))
  rw [h1, C_pure_bind, h2, C_pure_bind, h3, C_pure_bind, h4, C_pure_bind, k1, C_pure_bind, k2, C_pure_bind, k3,
    C_pure_bind, k4, C_pure_bind, Ok.pure_iff]
  refine ⟨rfl, h.tyi, h.box, ?_, ?_⟩
  · intro p q r hp hq hr
    show ((a4[p]!)[q]!)[r]! = _
    rw [ga p q r hp hq hr]
    by_cases c : p = i ∧ q / 4 = j ∧ r = x
    · rw [if_pos c, if_pos (show v p (q / 4) r ∨ (p = i ∧ q / 4 = j ∧ r = x) from .inr c)]
      obtain ⟨rfl, hq', rfl⟩ := c
      have hq4 : q = 4 * j + q % 4 := by omega
      rw [hq']
      have : q % 4 < 4 := by omega
      generalize q % 4 = d at hq4 this ⊢
      subst hq4
      obtain rfl | rfl | rfl | rfl : d = 0 ∨ d = 1 ∨ d = 2 ∨ d = 3 := by omega
      · rw [if_pos rfl]
      · rw [if_neg (by omega), if_pos rfl]
      · rw [if_neg (by omega), if_neg (by omega), if_pos rfl]
      · rw [if_neg (by omega), if_neg (by omega), if_neg (by omega)]
    · rw [if_neg c, h.boxes p q r hp hq hr]
      by_cases c2 : v p (q / 4) r
      · rw [if_pos c2, if_pos (.inl c2)]
      · rw [if_neg c2, if_neg (by rintro (c3 | c3); exacts [c2 c3, c c3])]
  · intro p q r hp hq hr hvis
    show ((o4[p]!)[q]!)[r]! = _
    rw [go p q r (by omega) hq hr]
    by_cases c : p = i ∧ q / 4 = j ∧ r = x
    · rw [if_pos c]
      obtain ⟨rfl, hq', rfl⟩ := c
      rw [hq', xi_eq r hr]
      unfold placed
      have : q % 4 < 4 := by omega
      generalize q % 4 = d at this ⊢
      obtain rfl | rfl | rfl | rfl : d = 0 ∨ d = 1 ∨ d = 2 ∨ d = 3 := by omega
      · rw [if_pos rfl]
      · rw [if_neg (by omega), if_pos rfl]
      · rw [if_neg (by omega), if_neg (by omega), if_pos rfl]
      · rw [if_neg (by omega), if_neg (by omega), if_neg (by omega)]
    · rw [if_neg c]
      exact h.out p q r hp hq hr (hvis.resolve_right c)

theorem mixBoxes_ok {lib : Lib} (hl : LibOk lib) (m : Mixing) (k : Nat → State) (T : Tables)
    (h : MixInv k m (fun _ _ _ => False) T) :
    Ok (mixBoxes lib m T) (fun T => MixInv k m (fun _ _ _ => True) T) := by
  unfold mixBoxes
  refine Ok.forUp (fun i (T : Tables) => MixInv k m (fun p _ _ => p < i) T) (by omega)
    (h.congr fun p q r hp hq hr => ⟨fun h => by omega, fun h => h.elim⟩) ?_
    (fun T h => h.congr fun p q r hp hq hr => ⟨fun _ => by omega, fun _ => trivial⟩)
  intro i T _ hi h
  by_cases h9 : i < 9
  · refine Ok.forUp (fun j (T : Tables) => MixInv k m (fun p q _ => p < i ∨ (p = i ∧ q < j)) T) (by omega)
      (h.congr fun p q r hp hq hr => by omega) ?_ (fun T h => h.congr fun p q r hp hq hr => by omega)
    intro j T _ hj h
    refine Ok.bind (fillBijIn_ok hl m i j h9 hj T.mixBijIn) ?_
    intro t ht
    refine Ok.forUp (fun x (T : Tables) =>
      MixInv k m (fun p q r => p < i ∨ (p = i ∧ (q < j ∨ (q = j ∧ r < x)))) T ∧
      ∀ d x, d < 4 → x < 256 → ((T.mixBijIn[i]!)[4 * j + d]!)[x]! = BitVec.ofNat 32 x) (by omega)
      ⟨?_, ht⟩ ?_ (fun T h => h.1.congr fun p q r hp hq hr => by omega)
    · have h' : MixInv k m (fun p q _ => p < i ∨ (p = i ∧ q < j)) { T with mixBijIn := t } :=
        ⟨h.tyi, h.box, h.boxes, h.out⟩
      exact h'.congr fun p q r hp hq hr => by omega
    rintro x T - hx ⟨h, hin⟩
    refine (mixBox_ok hl m k _ i j x h9 hj hx T h (by omega) hin).mono ?_
    rintro T' ⟨e, h'⟩
    refine ⟨h'.congr fun p q r hp hq hr => by omega, ?_⟩
    rw [e]
    exact hin
  · refine Ok.forUp (fun j (T : Tables) => MixInv k m (fun p _ _ => p < i) T) (by omega) h ?_
      (fun T h => h.congr fun p q r hp hq hr => by omega)
    intro j T _ hj h
    refine Ok.bind (P := fun _ => True) ?_ ?_
    · unfold fillBijIn
      refine Ok.forUp (fun _ _ => True) (by omega) trivial ?_ (fun _ _ => trivial)
      intro x t _ _ _
      rw [if_neg h9, Ok.pure_iff]
      trivial
    · intro t _
      refine Ok.forUp (fun x (T : Tables) => MixInv k m (fun p _ _ => p < i) T) (by omega)
        ⟨h.tyi, h.box, h.boxes, h.out⟩ ?_ (fun T h => h)
      intro x T _ _ h
      unfold mixBox
      rw [if_neg h9, Ok.pure_iff]
      exact h

/-! ## `xorTable` -/

theorem rd4_get {α : Type} [Inhabited α] {n m l q : Nat} (a : Vector (Vector (Vector (Vector α q) l) m) n) {x y z t : Nat}
    (hx : x < n) (hy : y < m) (hz : z < l) (ht : t < q) : rd4 a x y z t = .ok ((((a[x]!)[y]!)[z]!)[t]!) := by
  unfold rd4
  rw [rd_get a hx, C_pure_bind, rd3_get _ hy hz ht]

theorem wr4_get' {α : Type} [Inhabited α] {n m l q : Nat} (a : Vector (Vector (Vector (Vector α q) l) m) n) {x y z t : Nat}
    (hx : x < n) (hy : y < m) (hz : z < l) (ht : t < q) (v : α) :
    ∃ a', wr4 a x y z t v = .ok a' ∧ ∀ b c d e, b < n → c < m → d < l → e < q →
      (((a'[b]!)[c]!)[d]!)[e]! = if b = x ∧ c = y ∧ d = z ∧ e = t then v else (((a[b]!)[c]!)[d]!)[e]! := by
  unfold wr4
  rw [rd_get a hx, C_pure_bind]
  obtain ⟨r, hr, gr⟩ := wr3_get a[x]! hy hz ht v
  rw [hr, C_pure_bind]
  obtain ⟨s, hs, gs⟩ := wr_get a hx r
  refine ⟨s, hs, ?_⟩
  intro b c d e hb hc hd he
  rw [gs b hb]
  by_cases h : b = x
  · subst h
    rw [if_pos rfl, gr c d e hc hd he]
    by_cases h2 : c = y ∧ d = z ∧ e = t
    · rw [if_pos h2, if_pos ⟨rfl, h2⟩]
    · rw [if_neg h2, if_neg (fun h => h2 h.2)]
  · rw [if_neg h, if_neg (fun h' => h h'.1)]

theorem fillXor_ok (t : Vector (Vector (Vector (Vector (BitVec 8) 16) 16) 96) 9) :
    Ok (fillXor t) (fun t => ∀ a b c d, a < 9 → b < 96 → c < 16 → d < 16 →
      (((t[a]!)[b]!)[c]!)[d]! = BitVec.ofNat 8 (c ^^^ d)) := by
  unfold fillXor
  refine Ok.forUp (fun i (t : Vector (Vector (Vector (Vector (BitVec 8) 16) 16) 96) 9) =>
    ∀ a b c d, a < 9 → b < 96 → c < 16 → d < 16 → a < i → (((t[a]!)[b]!)[c]!)[d]! = BitVec.ofNat 8 (c ^^^ d)) (by omega)
    (by omega) ?_ (fun t h a b c d ha hb hc hd => h a b c d ha hb hc hd ha)
  intro i t _ hi h
  refine Ok.forUp (fun j (t : Vector (Vector (Vector (Vector (BitVec 8) 16) 16) 96) 9) =>
    ∀ a b c d, a < 9 → b < 96 → c < 16 → d < 16 → a < i ∨ (a = i ∧ b < j) →
      (((t[a]!)[b]!)[c]!)[d]! = BitVec.ofNat 8 (c ^^^ d)) (by omega)
    (fun a b c d ha hb hc hd hh => h a b c d ha hb hc hd (by omega)) ?_
    (fun t h a b c d ha hb hc hd hh => h a b c d ha hb hc hd (by omega))
  intro j t _ hj h
  refine Ok.forUp (fun x (t : Vector (Vector (Vector (Vector (BitVec 8) 16) 16) 96) 9) =>
    ∀ a b c d, a < 9 → b < 96 → c < 16 → d < 16 → a < i ∨ (a = i ∧ (b < j ∨ (b = j ∧ c < x))) →
      (((t[a]!)[b]!)[c]!)[d]! = BitVec.ofNat 8 (c ^^^ d)) (by omega)
    (fun a b c d ha hb hc hd hh => h a b c d ha hb hc hd (by omega)) ?_
    (fun t h a b c d ha hb hc hd hh => h a b c d ha hb hc hd (by omega))
  intro x t _ hx h
  refine Ok.forUp (fun y (t : Vector (Vector (Vector (Vector (BitVec 8) 16) 16) 96) 9) =>
    ∀ a b c d, a < 9 → b < 96 → c < 16 → d < 16 → a < i ∨ (a = i ∧ (b < j ∨ (b = j ∧ (c < x ∨ (c = x ∧ d < y))))) →
      (((t[a]!)[b]!)[c]!)[d]! = BitVec.ofNat 8 (c ^^^ d)) (by omega)
    (fun a b c d ha hb hc hd hh => h a b c d ha hb hc hd (by omega)) ?_
    (fun t h a b c d ha hb hc hd hh => h a b c d ha hb hc hd (by omega))
  intro y t _ hy h
  obtain ⟨t', ht, gt⟩ := wr4_get' t (x := i) (y := j) (z := x) (t := y) hi hj hx hy (BitVec.ofNat 8 (x ^^^ y))
  rw [ht, Ok.ok_iff]
  intro a b c d ha hb hc hd hh
  rw [gt a b c d ha hb hc hd]
  by_cases e : a = i ∧ b = j ∧ c = x ∧ d = y
  · obtain ⟨rfl, rfl, rfl, rfl⟩ := e
    rw [if_pos ⟨rfl, rfl, rfl, rfl⟩]
  · rw [if_neg e]
    exact h a b c d ha hb hc hd (by omega)

/-! ## All tables -/

/-- What the generated tables satisfy. -/
structure TablesOk (k : Nat → State) (M N : Nat → Nat → M32) (T : Tables) : Prop where
  tyi : GoodTyi T
  box : ∀ a b c, a < 10 → b < 16 → c < 256 → ((T.TBoxes[a]!)[b]!)[c]! = bx k a b c ^^^ (if a = 9 then (k 10)[b]! else 0)
  boxes : ∀ p q r, p < 9 → q < 16 → r < 256 → ((T.TyiBoxes[p]!)[q]!)[r]! = lin (M p (q / 4)) (Tyi (q % 4) (bx k p q r))
  out : ∀ p q r, p < 9 → q < 16 → r < 256 →
    ((T.mixBijOut[p]!)[q]!)[r]! = lin (N p (q / 4)) (placed (q % 4) (BitVec.ofNat 8 r))
  inv : ∀ p q x, p < 9 → q < 4 → lin (N p q) (lin (M p q) x) = x
  xor : ∀ a b c d, a < 9 → b < 96 → c < 16 → d < 16 → (((T.xorTable[a]!)[b]!)[c]!)[d]! = BitVec.ofNat 8 (c ^^^ d)

theorem computeTables_ok (env : Env) {lib : Lib} (hl : LibOk lib) (k : Nat → State) (T : Tables)
    (ek : Vector (BitVec 8) 176) (hk : KeyOk k ek) (w : World) :
    OkM (computeTables false env lib T ek) w (fun p _ => (∃ M N, TablesOk k M N p.1) ∧ KeyOkN k 10 p.2) := by
  unfold computeTables
  rw [OkM.bind_iff, OkM.liftC_iff]
  refine (fillTyi_ok T.TyiTables).mono ?_
  intro t ht
  refine OkM.bind (genMixing_ok hl (Mixing.junk env) w) ?_
  intro m w1 hm
  rw [OkM.bind_iff, OkM.liftC_iff]
  refine (fillBoxes_ok env hl hm k ek hk { T with TyiTables := t } ht).mono ?_
  rintro ⟨T, ek⟩ ⟨hty, hek, hg⟩
  simp only at hty hek hg ⊢
  rw [OkM.bind_iff, OkM.liftC_iff]
  refine (mixBoxes_ok hl m k T ⟨hty, ?_, ?_, fun _ _ _ _ _ _ h => h.elim⟩).mono ?_
  · intro a b c ha hb hc
    exact (hg a b c ha hb hc).1
  · intro p q r hp hq hr
    rw [if_neg (fun h => h)]
    exact (hg p q r (by omega) hq hr).2 hp
  intro T h
  rw [OkM.bind_iff, OkM.liftC_iff]
  refine (fillXor_ok T.xorTable).mono ?_
  intro xt hx
  rw [OkM.pure_iff]
  refine ⟨⟨fun p q => ((m.mb_32x32[p]!)[q]!)[0]!, fun p q => ((m.mb_32x32[p]!)[q]!)[1]!, h.tyi, h.box, ?_, ?_, ?_, hx⟩, hek⟩
  · intro p q r hp hq hr
    have := h.boxes p q r hp hq hr
    rwa [if_pos trivial] at this
  · intro p q r hp hq hr
    exact h.out p q r hp hq hr trivial
  · intro p q x hp hq
    exact hm.m32 p q (by omega) hq x

end WB.aes
