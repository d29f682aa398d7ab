import Verif.Proof.AccuracySec
import Verif.Proof.AccuracyCom

/-!
# The accuracy test: the whole program (helper lemmas)

Generated by `tools/gen_c60.py`.
-/
namespace WB.accuracy
open Matrix

theorem fill_ok {τ : Type} {n : Nat} (lo hi : Nat) (hle : lo ≤ hi) (hn : hi ≤ n) (v : Vector τ n) (c : τ)
    (f : Nat → Vector τ n → C (Vector τ n)) (hf : ∀ i v, i < hi → f i v = wr v i c)
    (h0 : ∀ i, i < lo → rd v i = .ok c) :
    Ok (forUp lo hi v f) (fun v => ∀ i, i < hi → rd v i = .ok c) := by
  refine Ok.forUp (fun k v => ∀ i, i < k → rd v i = .ok c) hle h0 ?_ (fun _ h => h)
  intro i v _ hi h
  rw [hf i v hi, wr_ok _ _ _ (by omega)]
  refine ⟨_, rfl, fun j hj => ?_⟩
  rw [rd_ok _ _ (by omega)]
  by_cases e : j = i
  · subst e; simp
  · rw [Vector.getElem_set_ne _ _ (by omega)]
    have := h j (by omega)
    rwa [rd_ok _ _ (by omega)] at this

theorem report_le {p e : String} (hp : p.toList.contains '%' = false) (he : e.toList.contains '%' = false) (b : Bool)
    (flag : Int) (w : World) :
    OkM (report p e b flag) w (fun f w' => f = (if b then flag else 0) ∧
      w'.out = w.out ++ chars [if b then p else e]) := by
  cases b
  · exact report_false he flag w
  · exact report_true hp flag w

theorem coms_ok (env : Env) (S : Stack) (flag : Int) (w : World) :
    OkM (coms env S flag) w (fun f w' => f = (if isLE env then flag else 0) ∧
      w'.out = w.out ++ chars ["-----affine concatenation test-----\n",
        if isLE env then "8to32: PASS\n" else "8to32: ERROR\n",
        if isLE env then "8to64: PASS\n" else "8to64: ERROR\n",
        if isLE env then "8to128: PASS\n" else "8to128: ERROR\n",
        if isLE env then "16to64: PASS\n" else "16to64: ERROR\n",
        if isLE env then "32to128: PASS\n" else "32to128: ERROR\n",
        if isLE env then "16to128: PASS\n" else "16to128: ERROR\n"]) := by
  unfold coms
  refine OkM.bind (printf_plain (by decide +kernel) w) ?_
  intro _ w0 h0
  obtain ⟨i32, e32, m32⟩ := C06_identityM32 (S.a32 7).Mat
  obtain ⟨i64, e64, m64⟩ := C06_identityM64 (S.a64 7).Mat
  obtain ⟨i128, e128, m128⟩ := C06_identityM128 (S.a128 7).Mat
  refine lift_step e32 ?_
  refine lift_step e64 ?_
  refine lift_step e128 ?_
  obtain ⟨acm8, e8, r8⟩ := fill_ok 0 16 (by omega) (le_refl 16) (Vector.ofFn fun i : Fin 16 => S.a8 (10 + i)) ⟨idM8, 0xff⟩
    (fun i acm8 => do
      let Mat ← identityM8 (← rd acm8 i).Mat
      wr acm8 i ⟨Mat, 0xff⟩)
    (fun i v hi => by
      rw [rd_ok _ _ (by omega)]
      simp only [C_pure_bind]
      rw [identityM8_eq, C_pure_bind]) (fun i h => absurd h (by omega))
  refine lift_step e8 ?_
  obtain ⟨F0, hF0, q0, hq0, hc0⟩ := com8to32 env i32 m32 (S.a32 8)
  refine lift_step (a := F0) (by rw [r8 0 (by omega), r8 1 (by omega), r8 2 (by omega), r8 3 (by omega)]; simp only [C_pure_bind]; exact hF0) ?_
  refine lift_step hq0 ?_
  rw [hc0]
  refine OkM.bind (report_le (by decide +kernel) (by decide +kernel) _ _ w0) ?_
  rintro f0 w1 ⟨hf0, h1⟩
  obtain ⟨F1, hF1, q1, hq1, hc1⟩ := com8to64 env i64 m64 (S.a64 8)
  refine lift_step (a := F1) (by rw [r8 0 (by omega), r8 1 (by omega), r8 2 (by omega), r8 3 (by omega), r8 4 (by omega), r8 5 (by omega), r8 6 (by omega), r8 7 (by omega)]; simp only [C_pure_bind]; exact hF1) ?_
  refine lift_step hq1 ?_
  rw [hc1]
  refine OkM.bind (report_le (by decide +kernel) (by decide +kernel) _ _ w1) ?_
  rintro f1 w2 ⟨hf1, h2⟩
  obtain ⟨F2, hF2, q2, hq2, hc2⟩ := com8to128 env i128 m128 (S.a128 8)
  refine lift_step (a := F2) (by rw [r8 0 (by omega), r8 1 (by omega), r8 2 (by omega), r8 3 (by omega), r8 4 (by omega), r8 5 (by omega), r8 6 (by omega), r8 7 (by omega), r8 8 (by omega), r8 9 (by omega), r8 10 (by omega), r8 11 (by omega), r8 12 (by omega), r8 13 (by omega), r8 14 (by omega), r8 15 (by omega)]; simp only [C_pure_bind]; exact hF2) ?_
  refine lift_step hq2 ?_
  rw [hc2]
  refine OkM.bind (report_le (by decide +kernel) (by decide +kernel) _ _ w2) ?_
  rintro f2 w3 ⟨hf2, h3⟩
  obtain ⟨⟨acm16, acm32⟩, e16, r16, r32⟩ : Ok
    (forUp 0 4 ((Vector.ofFn fun i : Fin 8 => S.a16 (10 + i)), (Vector.ofFn fun i : Fin 4 => S.a32 (10 + i)))
      fun i (acm16, acm32) => do
        let Mat ← identityM16 (← rd acm16 i).Mat
        let acm16 ← wr acm16 i ⟨Mat, 0xffff⟩
        let Mat ← identityM32 (← rd acm32 i).Mat
        let acm32 ← wr acm32 i ⟨Mat, 0xffffffff⟩
        pure (acm16, acm32))
    (fun p => (∀ i, i < 4 → rd p.1 i = .ok ⟨idM16, 0xffff⟩) ∧ ∀ i, i < 4 → rd p.2 i = .ok ⟨idM32, 0xffffffff⟩) := by
    refine Ok.forUp (fun k p => (∀ i, i < k → rd p.1 i = .ok ⟨idM16, 0xffff⟩) ∧
      ∀ i, i < k → rd p.2 i = .ok ⟨idM32, 0xffffffff⟩) (by omega)
      ⟨fun i h => absurd h (by omega), fun i h => absurd h (by omega)⟩ ?_ (fun _ h => h)
    rintro i ⟨x, y⟩ _ hi ⟨hx, hy⟩
    simp only
    rw [rd_ok x i (by omega), rd_ok y i (by omega)]
    simp only [C_pure_bind]
    rw [identityM16_eq, C_pure_bind, wr_ok _ _ _ (by omega), C_pure_bind, identityM32_eq, C_pure_bind,
      wr_ok _ _ _ (by omega), C_pure_bind]
    refine ⟨_, rfl, fun j hj => ?_, fun j hj => ?_⟩
    · rw [rd_ok _ _ (by omega)]
      by_cases e : j = i
      · subst e; simp
      · have := hx j (by omega)
        rw [rd_ok _ _ (by omega)] at this
        simpa [Vector.getElem_set_ne _ _ (Ne.symm e)] using this
    · rw [rd_ok _ _ (by omega)]
      by_cases e : j = i
      · subst e; simp
      · have := hy j (by omega)
        rw [rd_ok _ _ (by omega)] at this
        simpa [Vector.getElem_set_ne _ _ (Ne.symm e)] using this
  refine lift_step e16 ?_
  simp only
  obtain ⟨bcm16, f16, s16⟩ := fill_ok 4 8 (by omega) (le_refl 8) acm16 ⟨idM16, 0xffff⟩
    (fun i acm16 => do
      let Mat ← identityM16 (← rd acm16 i).Mat
      wr acm16 i ⟨Mat, 0xffff⟩)
    (fun i v hi => by
      rw [rd_ok _ _ (by omega)]
      simp only [C_pure_bind]
      rw [identityM16_eq, C_pure_bind]) r16
  refine lift_step f16 ?_
  obtain ⟨F3, hF3, q3, hq3, hc3⟩ := com16to64 env i64 m64 F1
  refine lift_step (a := F3) (by rw [s16 0 (by omega), s16 1 (by omega), s16 2 (by omega), s16 3 (by omega)]; simp only [C_pure_bind]; exact hF3) ?_
  refine lift_step hq3 ?_
  rw [hc3]
  refine OkM.bind (report_le (by decide +kernel) (by decide +kernel) _ _ w3) ?_
  rintro f3 w4 ⟨hf3, h4⟩
  obtain ⟨F4, hF4, q4, hq4, hc4⟩ := com32to128 env i128 m128 F2
  refine lift_step (a := F4) (by rw [r32 0 (by omega), r32 1 (by omega), r32 2 (by omega), r32 3 (by omega)]; simp only [C_pure_bind]; exact hF4) ?_
  refine lift_step hq4 ?_
  rw [hc4]
  refine OkM.bind (report_le (by decide +kernel) (by decide +kernel) _ _ w4) ?_
  rintro f4 w5 ⟨hf4, h5⟩
  obtain ⟨F5, hF5, q5, hq5, hc5⟩ := com16to128 env i128 m128 F4
  refine lift_step (a := F5) (by rw [s16 0 (by omega), s16 1 (by omega), s16 2 (by omega), s16 3 (by omega), s16 4 (by omega), s16 5 (by omega), s16 6 (by omega), s16 7 (by omega)]; simp only [C_pure_bind]; exact hF5) ?_
  refine lift_step hq5 ?_
  rw [hc5]
  refine (report_le (by decide +kernel) (by decide +kernel) _ _ w5).mono ?_
  rintro f5 w6 ⟨hf5, h6⟩
  refine ⟨?_, ?_⟩
  · rw [hf5, hf4, hf3, hf2, hf1, hf0]
    cases isLE env <;> rfl
  · rw [h6, h5, h4, h3, h2, h1, h0]
    simp [chars]

/-- The lines about everything but concatenation. -/
def headLines : List String :=
  ["-----bitwise operation (read/set/flip) test-----\n", "4bit: PASS\n", "8bit: PASS\n", "16bit: PASS\n", "32bit: PASS\n", "64bit: PASS\n", "128bit: PASS\n", "256bit: PASS\n",
   "-----mat mul num test-----\n", "4bit: PASS\n", "8bit: PASS\n", "16bit: PASS\n", "32bit: PASS\n", "64bit: PASS\n",
   "-----mat mul vec test-----\n", "4bit: PASS\n", "8bit: PASS\n", "16bit: PASS\n", "32bit: PASS\n", "64bit: PASS\n", "128bit: PASS\n", "256bit: PASS\n",
   "-----mat mul mat (includes mat transpositon) test-----\n", "4bit: PASS\n", "8bit: PASS\n", "16bit: PASS\n", "32bit: PASS\n", "64bit: PASS\n", "128bit: PASS\n", "256bit: PASS\n",
   "-----invertible and inverse test-----\n", "4bit: PASS\n", "8bit: PASS\n", "16bit: PASS\n", "32bit: PASS\n", "64bit: PASS\n", "128bit: PASS\n", "256bit: PASS\n",
   "-----invertible affine and affine transform test-----\n", "4bit: PASS\n", "8bit: PASS\n", "16bit: PASS\n", "32bit: PASS\n", "64bit: PASS\n", "128bit: PASS\n",
   "-----affine mix test-----\n", "4bit: PASS\n", "8bit: PASS\n", "16bit: PASS\n", "32bit: PASS\n", "64bit: PASS\n", "128bit: PASS\n"]

theorem main_ok (env : Env) (S : Stack) (w : World) :
    OkM (main env S) w (fun r w' => r = 0 ∧ w'.out = w.out ++ chars (headLines ++ ["-----affine concatenation test-----\n",
        if isLE env then "8to32: PASS\n" else "8to32: ERROR\n",
        if isLE env then "8to64: PASS\n" else "8to64: ERROR\n",
        if isLE env then "8to128: PASS\n" else "8to128: ERROR\n",
        if isLE env then "16to64: PASS\n" else "16to64: ERROR\n",
        if isLE env then "32to128: PASS\n" else "32to128: ERROR\n",
        if isLE env then "16to128: PASS\n" else "16to128: ERROR\n",
        if isLE env then "\nALL PASS!" else "\nERROR!"])) := by
  unfold main
  refine OkM.bind (bits_ok env S _ _) ?_
  rintro _ w1 ⟨rfl, h1⟩
  refine OkM.bind (nums_ok env S _ _) ?_
  rintro _ w2 ⟨rfl, h2⟩
  refine OkM.bind (vecs_ok env S _ _) ?_
  rintro _ w3 ⟨rfl, h3⟩
  refine OkM.bind (mats_ok env S _ _) ?_
  rintro _ w4 ⟨rfl, h4⟩
  refine OkM.bind (invs_ok env S _ _) ?_
  rintro _ w5 ⟨rfl, h5⟩
  refine OkM.bind (affs_ok env S _ _) ?_
  rintro _ w6 ⟨rfl, h6⟩
  refine OkM.bind (mixes_ok env S _ _) ?_
  rintro _ w7 ⟨rfl, h7⟩
  refine OkM.bind (coms_ok env S _ _) ?_
  rintro f w8 ⟨rfl, h8⟩
  suffices e : OkM (if (if isLE env then (1 : Int) else 0) != 0 then (do printf "\nALL PASS!" []; pure 0)
      else (do printf "\nERROR!" []; pure 0)) w8
      (fun r w' => r = (0 : Int) ∧ w'.out = w8.out ++ chars [if isLE env then "\nALL PASS!" else "\nERROR!"]) by
    refine e.mono ?_
    rintro r w9 ⟨rfl, h9⟩
    refine ⟨rfl, ?_⟩
    rw [h9, h8, h7, h6, h5, h4, h3, h2, h1]
    simp only [List.append_assoc, ← chars_append]
    rfl
  cases isLE env
  · refine OkM.bind (printf_plain (s := "\nERROR!") (by decide +kernel) w8) ?_
    intro _ w' h
    rw [OkM.pure_iff]
    exact ⟨rfl, by rw [h]; simp [chars]⟩
  · refine OkM.bind (printf_plain (s := "\nALL PASS!") (by decide +kernel) w8) ?_
    intro _ w' h
    rw [OkM.pure_iff]
    exact ⟨rfl, by rw [h]; simp [chars]⟩

end WB.accuracy
