import Verif.Proof.RandRun
import Verif.Proof.Rows
import Verif.Spec
import Mathlib.Data.List.OfFn

/-!
# Printing (helper lemmas)
-/
namespace WB

/-- World after printing `s`. -/
def World.put (w : World) (s : List Char) : World := { w with out := w.out ++ s }

theorem put_put (w : World) (a b : List Char) : (w.put a).put b = w.put (a ++ b) := by
  unfold World.put; simp

theorem put_nil (w : World) : w.put [] = w := by unfold World.put; simp

theorem printf_run {fmt : String} {args : List Arg} {s : List Char} (w : World)
    (h : fmtOut fmt.toList args = .ok s) : printf fmt args w = .ok ((), w.put s) := by
  unfold printf
  rw [CM_bind_run (liftC_run w h)]
  rfl

theorem outFor {σ : Type} (n : Nat) (f : Nat → σ → CM σ) (g : Fin n → List Char) (st : Nat → σ) (w : World)
    (h : ∀ (i : Fin n) w, f i (st i) w = .ok (st (i + 1), w.put (g i))) :
    forUp 0 n (st 0) f w = .ok (st n, w.put (List.ofFn g).flatten) := by
  induction n with
  | zero => rw [List.ofFn_zero]; simp [put_nil]; rfl
  | succ n ih =>
    have e : forUp 0 (n + 1) (st 0) f w = (forUp 0 n (st 0) f >>= f n) w := by
      unfold forUp
      rw [Nat.sub_zero, Nat.sub_zero, List.range'_concat, List.foldlM_append]
      simp
    rw [e, CM_bind_run (ih (fun i => g i.castSucc) (fun i w => h i.castSucc w))]
    refine (h (Fin.last n) _).trans ?_
    rw [put_put, List.ofFn_succ_last]
    simp

theorem shl_mask (W m : Nat) (hm : m < W) (x : BitVec W) (j : Nat) (hj : j ≤ m) (mask : BitVec W)
    (hmask : mask = BitVec.twoPow W m) :
    (((x <<< j) &&& mask) != 0) = x.getLsbD (m - j) := by
  show (((x <<< j) &&& mask) != 0#W) = x.getLsbD (m - j)
  rw [hmask, BitVec.and_twoPow, BitVec.getLsbD_shiftLeft]
  have h1 : ¬ m < j := by omega
  have h2 : BitVec.twoPow W m ≠ 0#W := by
    intro h
    have := congrArg (fun x => x.getLsbD m) h
    simp [hm] at this
  cases h : x.getLsbD (m - j) <;> simp [hm, h1, h2]

/-- One row of digits. -/
def bitDigits (x : BitVec W) (m : Nat) (n : Nat) : List Char :=
  (List.ofFn fun j : Fin n => [if x.getLsbD (m - j) then '1' else '0', ' ']).flatten

theorem bitLoop {W : Nat} (m n : Nat) (hm : m < W) (hn : n ≤ m + 1) (mask : BitVec W) (hmask : mask = BitVec.twoPow W m)
    (x : BitVec W) (w : World) :
    (forUp 0 n x (fun _j temp => do
      if temp &&& mask != 0 then printf "%d " [.i32 1] else printf "%d " [.i32 0]
      pure (temp <<< 1)) : CM (BitVec W)) w = .ok (x <<< n, w.put (bitDigits x m n)) := by
  have h := outFor n (fun _j (temp : BitVec W) => do
      if temp &&& mask != 0 then printf "%d " [.i32 1] else printf "%d " [.i32 0]
      pure (temp <<< 1)) (fun j : Fin n => [if x.getLsbD (m - j) then '1' else '0', ' '])
      (fun j => x <<< j) w ?_
  · simp only [BitVec.shiftLeft_zero] at h; exact h
  · intro j w
    have hb := shl_mask W m hm x j (by omega) mask hmask
    have hs : x <<< (j : Nat) <<< (1 : Nat) = x <<< ((j : Nat) + 1) := by
      rw [BitVec.shiftLeft_add]
    have e1 : fmtOut "%d ".toList [.i32 1] = .ok ['1', ' '] := rfl
    have e0 : fmtOut "%d ".toList [.i32 0] = .ok ['0', ' '] := rfl
    show _ = Except.ok (x <<< ((j : Nat) + 1), _)
    cases hx : x.getLsbD (m - j)
    · rw [hx] at hb
      rw [if_neg (by rw [hb]; simp)]
      rw [CM_bind_run (printf_run w e0), hs]; rfl
    · rw [hx] at hb
      rw [if_pos hb]
      rw [CM_bind_run (printf_run w e1), hs]; rfl

/-! ## The texts determine the values -/

theorem sep_inj {sep : Char} : ∀ {a b s t : List Char}, sep ∉ a → sep ∉ b → a ++ sep :: s = b ++ sep :: t →
    a = b ∧ s = t
  | [], [], _, _, _, _, h => ⟨rfl, by simpa using h⟩
  | [], c :: b, _, _, _, hb, h => by
    simp only [List.nil_append, List.cons_append, List.cons.injEq] at h
    exact absurd (h.1 ▸ List.mem_cons_self) hb
  | c :: a, [], _, _, ha, _, h => by
    simp only [List.nil_append, List.cons_append, List.cons.injEq] at h
    exact absurd (h.1 ▸ List.mem_cons_self) ha
  | c :: a, d :: b, _, _, ha, hb, h => by
    simp only [List.cons_append, List.cons.injEq] at h
    obtain ⟨h1, h2⟩ := sep_inj (fun h => ha (List.mem_cons_of_mem _ h)) (fun h => hb (List.mem_cons_of_mem _ h)) h.2
    exact ⟨by rw [h.1, h1], h2⟩

theorem lines_inj (sep : Char) : ∀ {n : Nat} (f g : Fin n → List Char), (∀ i, sep ∉ f i) → (∀ i, sep ∉ g i) →
    (List.ofFn fun i => f i ++ [sep]).flatten = (List.ofFn fun i => g i ++ [sep]).flatten → f = g
  | 0, _, _, _, _, _ => funext fun i => i.elim0
  | n + 1, f, g, hf, hg, h => by
    rw [List.ofFn_succ, List.ofFn_succ, List.flatten_cons, List.flatten_cons, List.append_assoc,
      List.append_assoc] at h
    obtain ⟨h0, h1⟩ := sep_inj (hf 0) (hg 0) h
    have := lines_inj sep (fun i => f i.succ) (fun i => g i.succ) (fun i => hf _) (fun i => hg _) h1
    funext i
    refine Fin.cases h0 (fun j => congrFun this j) i

theorem bitText_inj {n : Nat} {A B : Matrix (Fin n) (Fin n) (ZMod 2)} (h : bitText A = bitText B) : A = B := by
  unfold bitText at h
  rw [List.append_left_inj] at h
  have key : ∀ A : Matrix (Fin n) (Fin n) (ZMod 2), ∀ i,
      '\n' ∉ (List.ofFn fun j => [if A i j = 1 then '1' else '0', ' ']).flatten := by
    intro A i hm
    rw [List.mem_flatten] at hm
    obtain ⟨l, hl, hm⟩ := hm
    rw [List.mem_ofFn] at hl
    obtain ⟨j, rfl⟩ := hl
    split at hm <;> simp at hm
  have h1 := lines_inj '\n' _ _ (key A) (key B) h
  funext i j
  have h2 := lines_inj ' ' (fun j => [if A i j = 1 then '1' else '0']) (fun j => [if B i j = 1 then '1' else '0'])
    (by intro j hm; split at hm <;> simp at hm) (by intro j hm; split at hm <;> simp at hm) (congrFun h1 i)
  have h3 := congrFun h2 j
  have z : ∀ a : ZMod 2, a = 0 ∨ a = 1 := by decide
  rcases z (A i j) with ha | ha <;> rcases z (B i j) with hb | hb <;> rw [ha, hb] at h3 ⊢ <;> simp at h3

theorem hexVal_digitChar : ∀ d < 16, hexVal (Nat.digitChar d) = d := by decide

theorem digitChar_ok : ∀ d < 16, Nat.digitChar d ∈ ['0','1','2','3','4','5','6','7','8','9','a','b','c','d','e','f'] := by
  decide

theorem hexNum_append (a : List Char) (c : Char) : hexNum (a ++ [c]) = 16 * hexNum a + hexVal c := by
  unfold hexNum; simp

/-- Reading a hexadecimal number back. -/
theorem hexNum_toDigits (n : Nat) : hexNum (Nat.toDigits 16 n) = n := by
  induction n using Nat.strong_induction_on with
  | _ n ih =>
    rw [Nat.toDigits_eq_if (by omega)]
    split
    · rename_i h
      show 16 * 0 + hexVal _ = n
      rw [hexVal_digitChar n h]; omega
    · rw [hexNum_append, ih _ (by omega), hexVal_digitChar _ (by omega)]
      omega

theorem mem_toDigits (n : Nat) : ∀ c ∈ Nat.toDigits 16 n,
    c ∈ ['0','1','2','3','4','5','6','7','8','9','a','b','c','d','e','f'] := by
  induction n using Nat.strong_induction_on with
  | _ n ih =>
    rw [Nat.toDigits_eq_if (by omega)]
    split
    · rename_i h
      intro c hc
      rw [List.mem_singleton] at hc
      rw [hc]; exact digitChar_ok n h
    · intro c hc
      rw [List.mem_append, List.mem_singleton] at hc
      rcases hc with hc | rfl
      · exact ih _ (by omega) c hc
      · exact digitChar_ok _ (by omega)

theorem head_toDigits (n : Nat) (hn : 0 < n) : (Nat.toDigits 16 n).head? ≠ some '0' := by
  induction n using Nat.strong_induction_on with
  | _ n ih =>
    rw [Nat.toDigits_eq_if (by omega)]
    split
    · rename_i h
      have : ∀ d < 16, 0 < d → [Nat.digitChar d].head? ≠ some '0' := by decide
      exact this n h hn
    · rename_i h
      have := ih (n / 16) (by omega) (by omega)
      have hne := Nat.toDigits_ne_nil (n := n / 16) (b := 16)
      cases hd : Nat.toDigits 16 (n / 16) with
      | nil => exact absurd hd hne
      | cons a l => rw [hd] at this; simpa using this

theorem hexWord_inj {x y : Nat} (h : hexWord x = hexWord y) : x = y := by
  unfold hexWord at h
  injection h with _ h
  injection h with _ h
  rw [← hexNum_toDigits x, h, hexNum_toDigits]

theorem hexWord_notMem (x : Nat) (c : Char) (hc : c ∉ ['0','1','2','3','4','5','6','7','8','9','a','b','c','d','e','f','x']) :
    c ∉ hexWord x := by
  intro h
  refine hc ?_
  unfold hexWord at h
  rw [List.mem_cons, List.mem_cons] at h
  rcases h with rfl | rfl | h
  · simp
  · simp
  · have := mem_toDigits x c h
    simp only [List.mem_cons, List.not_mem_nil, or_false] at this ⊢
    tauto

theorem intercalate_cons2 (a b : List Char) (l : List (List Char)) :
    [' '].intercalate (a :: b :: l) = a ++ ' ' :: [' '].intercalate (b :: l) := by
  simp [List.intercalate]

theorem hexLine_body_inj : ∀ {a b : List Nat}, a.length = b.length →
    [' '].intercalate (a.map hexWord) = [' '].intercalate (b.map hexWord) → a = b
  | [], [], _, _ => rfl
  | [x], [y], _, h => by
    have h : hexWord x = hexWord y := by simpa [List.intercalate] using h
    rw [hexWord_inj h]
  | x :: x' :: l, y :: y' :: l', hl, h => by
    simp only [List.map_cons] at h
    rw [intercalate_cons2, intercalate_cons2] at h
    obtain ⟨h0, h1⟩ := sep_inj (hexWord_notMem x ' ' (by decide)) (hexWord_notMem y ' ' (by decide)) h
    have := hexLine_body_inj (a := x' :: l) (b := y' :: l') (by simpa using hl) h1
    rw [hexWord_inj h0, this]
  | [], _ :: _, h, _ => by simp at h
  | _ :: _, [], h, _ => by simp at h
  | [_], _ :: _ :: _, h, _ => by simp at h
  | _ :: _ :: _, [_], h, _ => by simp at h

theorem hexLine_body_notMem : ∀ a : List Nat, '\n' ∉ [' '].intercalate (a.map hexWord)
  | [] => by simp [List.intercalate]
  | [x] => by
    simpa [List.intercalate] using hexWord_notMem x '\n' (by decide)
  | x :: y :: l => by
    simp only [List.map_cons]
    rw [intercalate_cons2, List.mem_append, List.mem_cons]
    rintro (h | h | h)
    · exact hexWord_notMem x '\n' (by decide) h
    · exact absurd h (by decide)
    · exact hexLine_body_notMem (y :: l) h

theorem hexText_inj : ∀ {a b : List (List Nat)}, a.length = b.length →
    (∀ r ∈ a, ∀ s ∈ b, r.length = s.length) → hexText a = hexText b → a = b
  | [], [], _, _, _ => rfl
  | r :: a, s :: b, hl, hr, h => by
    unfold hexText at h
    simp only [List.map_cons, List.flatten_cons] at h
    unfold hexLine at h
    rw [List.append_assoc, List.append_assoc] at h
    obtain ⟨h0, h1⟩ := sep_inj (hexLine_body_notMem r) (hexLine_body_notMem s) h
    rw [hexLine_body_inj (hr r (by simp) s (by simp)) h0,
      hexText_inj (a := a) (b := b) (by simpa using hl)
        (fun r h s h' => hr r (by simp [h]) s (by simp [h'])) h1]
  | [], _ :: _, h, _, _ => by simp at h
  | _ :: _, [], h, _, _ => by simp at h

end WB
