import Verif.Proof.Print
import Verif.Prop.Examples

/-!
# C38 — the text of `printM`/`printV` determines the value
-/
namespace WB
open Matrix

/-- C38: what `0x…` means: the digits are hexadecimal digits, denote the number, and there is no leading zero. -/
theorem C38_hexWord (x : Nat) : ∃ d, hexWord x = '0' :: 'x' :: d ∧ hexNum d = x ∧
    (∀ c ∈ d, c ∈ "0123456789abcdef".toList) ∧ (0 < x → d.head? ≠ some '0') :=
  ⟨_, rfl, hexNum_toDigits x, mem_toDigits x, head_toDigits x⟩

theorem hexRows {R : Type} {n : Nat} (ws : R → List Nat) (A : Vector R n) (f : Nat → Unit → CM Unit)
    (w : World) (hf : ∀ (i : Fin n) w, f i () w = .ok ((), w.put (hexLine (ws A[i])))) :
    forUp 0 n () f w = .ok ((), w.put (hexText (A.toList.map ws))) := by
  rw [outFor n f _ (fun _ => ()) w hf]
  congr 3
  unfold hexText
  congr 1
  apply List.ext_getElem
  · simp
  · intro i h1 h2
    simp

theorem hexText_vec_inj {R : Type} {n : Nat} (ws : R → List Nat) (hl : ∀ x y, (ws x).length = (ws y).length)
    (hws : ∀ x y, ws x = ws y → x = y) {A B : Vector R n}
    (h : hexText (A.toList.map ws) = hexText (B.toList.map ws)) : A = B := by
  have := hexText_inj (by simp) (by simp; intros; exact hl _ _) h
  have := List.map_injective_iff.2 (fun x y h => hws x y h) this
  exact Vector.toList_inj.1 this

theorem words_inj {l w : Nat} (x y : Vector (BitVec w) l)
    (h : x.toList.map BitVec.toNat = y.toList.map BitVec.toNat) : x = y :=
  Vector.toList_inj.1 (List.map_injective_iff.2 (fun _ _ h => BitVec.eq_of_toNat_eq h) h)

theorem fmt_x (v : BitVec 32) : fmtOut "0x%x\n".toList [.u32 v] = .ok (hexLine [v.toNat]) := by
  simp only [hexLine, List.map, List.intercalate_singleton]; rfl
theorem fmt_llx (v : BitVec 64) : fmtOut "0x%llx\n".toList [.u64 v] = .ok (hexLine [v.toNat]) := by
  simp only [hexLine, List.map, List.intercalate_singleton]; rfl
theorem fmt_llx_n (v : BitVec 64) : fmtOut "0x%llx\n".toList [.u64 v] = .ok (hexWord v.toNat ++ ['\n']) := rfl
theorem fmt_llx_b (v : BitVec 64) : fmtOut "0x%llx ".toList [.u64 v] = .ok (hexWord v.toNat ++ [' ']) := rfl

theorem hexLine2 (x : Vector (BitVec 64) 2) : hexLine (x.toList.map BitVec.toNat) =
    (hexWord x[0].toNat ++ [' ']) ++ (hexWord x[1].toNat ++ ['\n']) := by
  have : x.toList = [x[0], x[1]] := by
    apply List.ext_getElem
    · simp
    · intro i h1 h2
      have : i = 0 ∨ i = 1 := by simp at h2; omega
      rcases this with rfl | rfl <;> rfl
  rw [this]
  simp [hexLine, List.intercalate]

theorem hexLine4 (x : Vector (BitVec 64) 4) : hexLine (x.toList.map BitVec.toNat) =
    (hexWord x[0].toNat ++ [' ']) ++ ((hexWord x[1].toNat ++ [' ']) ++ ((hexWord x[2].toNat ++ [' ']) ++
      (hexWord x[3].toNat ++ ['\n']))) := by
  have : x.toList = [x[0], x[1], x[2], x[3]] := by
    apply List.ext_getElem
    · simp
    · intro i h1 h2
      have : i = 0 ∨ i = 1 ∨ i = 2 ∨ i = 3 := by simp at h2; omega
      rcases this with rfl | rfl | rfl | rfl <;> rfl
  rw [this]
  simp [hexLine, List.intercalate]

theorem hexLine_inj {a b : List Nat} (hl : a.length = b.length) (h : hexLine a = hexLine b) : a = b := by
  unfold hexLine at h
  exact hexLine_body_inj hl (List.append_cancel_right h)

/-- C38: `printM4` prints one line with one hexadecimal number for every row. -/
theorem C38_printM4 (A : M4) (w : World) : printM4 A w =
    .ok ((), { w with out := w.out ++ hexText (A.toList.map fun x => [x.toNat]) }) := by
  refine hexRows (fun x => [x.toNat]) A _ w fun i w => ?_
  rw [CM_bind_run (liftC_run w (rd_ok A i i.isLt)), printf_run _ (fmt_x _)]
  rw [BitVec.toNat_setWidth_of_le (by omega)]
  rfl

/-- C38: `printV4` prints one hexadecimal number. -/
theorem C38_printV4 (x : V4) (w : World) : printV4 x w =
    .ok ((), { w with out := w.out ++ hexLine [x.toNat] }) := by
  refine (printf_run _ (fmt_x _)).trans ?_
  rw [BitVec.toNat_setWidth_of_le (by omega)]
  rfl

/-- C38: the text of `printM4` determines the matrix. -/
theorem C38_printM4_injective (A B : M4) (hne : A ≠ B) (w : World) :
    ∃ w1 w2, printM4 A w = .ok ((), w1) ∧ printM4 B w = .ok ((), w2) ∧ w1.out ≠ w2.out := by
  refine ⟨_, _, C38_printM4 A w, C38_printM4 B w, fun h => hne ?_⟩
  exact hexText_vec_inj (fun x : BitVec 8 => [x.toNat]) (fun _ _ => rfl)
    (fun x y h => BitVec.eq_of_toNat_eq (List.cons.inj h).1) (List.append_cancel_left h)

/-- C38: the text of `printV4` determines the vector. -/
theorem C38_printV4_injective (x y : V4) (hne : x ≠ y) (w : World) :
    ∃ w1 w2, printV4 x w = .ok ((), w1) ∧ printV4 y w = .ok ((), w2) ∧ w1.out ≠ w2.out := by
  refine ⟨_, _, C38_printV4 x w, C38_printV4 y w, fun h => hne ?_⟩
  have := hexLine_inj (a := [x.toNat]) (b := [y.toNat]) rfl (List.append_cancel_left h)
  exact BitVec.eq_of_toNat_eq (List.cons.inj this).1

/-- C38: `printM8` prints one line with one hexadecimal number for every row. -/
theorem C38_printM8 (A : M8) (w : World) : printM8 A w =
    .ok ((), { w with out := w.out ++ hexText (A.toList.map fun x => [x.toNat]) }) := by
  refine hexRows (fun x => [x.toNat]) A _ w fun i w => ?_
  rw [CM_bind_run (liftC_run w (rd_ok A i i.isLt)), printf_run _ (fmt_x _)]
  rw [BitVec.toNat_setWidth_of_le (by omega)]
  rfl

/-- C38: `printV8` prints one hexadecimal number. -/
theorem C38_printV8 (x : V8) (w : World) : printV8 x w =
    .ok ((), { w with out := w.out ++ hexLine [x.toNat] }) := by
  refine (printf_run _ (fmt_x _)).trans ?_
  rw [BitVec.toNat_setWidth_of_le (by omega)]
  rfl

/-- C38: the text of `printM8` determines the matrix. -/
theorem C38_printM8_injective (A B : M8) (hne : A ≠ B) (w : World) :
    ∃ w1 w2, printM8 A w = .ok ((), w1) ∧ printM8 B w = .ok ((), w2) ∧ w1.out ≠ w2.out := by
  refine ⟨_, _, C38_printM8 A w, C38_printM8 B w, fun h => hne ?_⟩
  exact hexText_vec_inj (fun x : BitVec 8 => [x.toNat]) (fun _ _ => rfl)
    (fun x y h => BitVec.eq_of_toNat_eq (List.cons.inj h).1) (List.append_cancel_left h)

/-- C38: the text of `printV8` determines the vector. -/
theorem C38_printV8_injective (x y : V8) (hne : x ≠ y) (w : World) :
    ∃ w1 w2, printV8 x w = .ok ((), w1) ∧ printV8 y w = .ok ((), w2) ∧ w1.out ≠ w2.out := by
  refine ⟨_, _, C38_printV8 x w, C38_printV8 y w, fun h => hne ?_⟩
  have := hexLine_inj (a := [x.toNat]) (b := [y.toNat]) rfl (List.append_cancel_left h)
  exact BitVec.eq_of_toNat_eq (List.cons.inj this).1

/-- C38: `printM16` prints one line with one hexadecimal number for every row. -/
theorem C38_printM16 (A : M16) (w : World) : printM16 A w =
    .ok ((), { w with out := w.out ++ hexText (A.toList.map fun x => [x.toNat]) }) := by
  refine hexRows (fun x => [x.toNat]) A _ w fun i w => ?_
  rw [CM_bind_run (liftC_run w (rd_ok A i i.isLt)), printf_run _ (fmt_x _)]
  rw [BitVec.toNat_setWidth_of_le (by omega)]
  rfl

/-- C38: `printV16` prints one hexadecimal number. -/
theorem C38_printV16 (x : V16) (w : World) : printV16 x w =
    .ok ((), { w with out := w.out ++ hexLine [x.toNat] }) := by
  refine (printf_run _ (fmt_x _)).trans ?_
  rw [BitVec.toNat_setWidth_of_le (by omega)]
  rfl

/-- C38: the text of `printM16` determines the matrix. -/
theorem C38_printM16_injective (A B : M16) (hne : A ≠ B) (w : World) :
    ∃ w1 w2, printM16 A w = .ok ((), w1) ∧ printM16 B w = .ok ((), w2) ∧ w1.out ≠ w2.out := by
  refine ⟨_, _, C38_printM16 A w, C38_printM16 B w, fun h => hne ?_⟩
  exact hexText_vec_inj (fun x : BitVec 16 => [x.toNat]) (fun _ _ => rfl)
    (fun x y h => BitVec.eq_of_toNat_eq (List.cons.inj h).1) (List.append_cancel_left h)

/-- C38: the text of `printV16` determines the vector. -/
theorem C38_printV16_injective (x y : V16) (hne : x ≠ y) (w : World) :
    ∃ w1 w2, printV16 x w = .ok ((), w1) ∧ printV16 y w = .ok ((), w2) ∧ w1.out ≠ w2.out := by
  refine ⟨_, _, C38_printV16 x w, C38_printV16 y w, fun h => hne ?_⟩
  have := hexLine_inj (a := [x.toNat]) (b := [y.toNat]) rfl (List.append_cancel_left h)
  exact BitVec.eq_of_toNat_eq (List.cons.inj this).1

/-- C38: `printM32` prints one line with one hexadecimal number for every row. -/
theorem C38_printM32 (A : M32) (w : World) : printM32 A w =
    .ok ((), { w with out := w.out ++ hexText (A.toList.map fun x => [x.toNat]) }) := by
  refine hexRows (fun x => [x.toNat]) A _ w fun i w => ?_
  rw [CM_bind_run (liftC_run w (rd_ok A i i.isLt)), printf_run _ (fmt_x _)]
  rfl

/-- C38: `printV32` prints one hexadecimal number. -/
theorem C38_printV32 (x : V32) (w : World) : printV32 x w =
    .ok ((), { w with out := w.out ++ hexLine [x.toNat] }) := by
  refine (printf_run _ (fmt_x _)).trans ?_
  rfl

/-- C38: the text of `printM32` determines the matrix. -/
theorem C38_printM32_injective (A B : M32) (hne : A ≠ B) (w : World) :
    ∃ w1 w2, printM32 A w = .ok ((), w1) ∧ printM32 B w = .ok ((), w2) ∧ w1.out ≠ w2.out := by
  refine ⟨_, _, C38_printM32 A w, C38_printM32 B w, fun h => hne ?_⟩
  exact hexText_vec_inj (fun x : BitVec 32 => [x.toNat]) (fun _ _ => rfl)
    (fun x y h => BitVec.eq_of_toNat_eq (List.cons.inj h).1) (List.append_cancel_left h)

/-- C38: the text of `printV32` determines the vector. -/
theorem C38_printV32_injective (x y : V32) (hne : x ≠ y) (w : World) :
    ∃ w1 w2, printV32 x w = .ok ((), w1) ∧ printV32 y w = .ok ((), w2) ∧ w1.out ≠ w2.out := by
  refine ⟨_, _, C38_printV32 x w, C38_printV32 y w, fun h => hne ?_⟩
  have := hexLine_inj (a := [x.toNat]) (b := [y.toNat]) rfl (List.append_cancel_left h)
  exact BitVec.eq_of_toNat_eq (List.cons.inj this).1

/-- C38: `printM64` prints one line with one hexadecimal number for every row. -/
theorem C38_printM64 (A : M64) (w : World) : printM64 A w =
    .ok ((), { w with out := w.out ++ hexText (A.toList.map fun x => [x.toNat]) }) := by
  refine hexRows (fun x => [x.toNat]) A _ w fun i w => ?_
  rw [CM_bind_run (liftC_run w (rd_ok A i i.isLt)), printf_run _ (fmt_llx _)]
  rfl

/-- C38: `printV64` prints one hexadecimal number. -/
theorem C38_printV64 (x : V64) (w : World) : printV64 x w =
    .ok ((), { w with out := w.out ++ hexLine [x.toNat] }) := by
  refine (printf_run _ (fmt_llx _)).trans ?_
  rfl

/-- C38: the text of `printM64` determines the matrix. -/
theorem C38_printM64_injective (A B : M64) (hne : A ≠ B) (w : World) :
    ∃ w1 w2, printM64 A w = .ok ((), w1) ∧ printM64 B w = .ok ((), w2) ∧ w1.out ≠ w2.out := by
  refine ⟨_, _, C38_printM64 A w, C38_printM64 B w, fun h => hne ?_⟩
  exact hexText_vec_inj (fun x : BitVec 64 => [x.toNat]) (fun _ _ => rfl)
    (fun x y h => BitVec.eq_of_toNat_eq (List.cons.inj h).1) (List.append_cancel_left h)

/-- C38: the text of `printV64` determines the vector. -/
theorem C38_printV64_injective (x y : V64) (hne : x ≠ y) (w : World) :
    ∃ w1 w2, printV64 x w = .ok ((), w1) ∧ printV64 y w = .ok ((), w2) ∧ w1.out ≠ w2.out := by
  refine ⟨_, _, C38_printV64 x w, C38_printV64 y w, fun h => hne ?_⟩
  have := hexLine_inj (a := [x.toNat]) (b := [y.toNat]) rfl (List.append_cancel_left h)
  exact BitVec.eq_of_toNat_eq (List.cons.inj this).1

/-- C38: `printM128` prints one line with 2 hexadecimal numbers for every row. -/
theorem C38_printM128 (A : M128) (w : World) : printM128 A w =
    .ok ((), { w with out := w.out ++ hexText (A.toList.map fun r => r.toList.map BitVec.toNat) }) := by
  refine hexRows (fun r : Vector (BitVec 64) 2 => r.toList.map BitVec.toNat) A _ w fun i w => ?_
  rw [CM_bind_run (liftC_run w (rd2_ok A i 0 i.isLt (by omega))), CM_bind_run (printf_run _ (fmt_llx_b _))]
  rw [CM_bind_run (liftC_run _ (rd2_ok A i 1 i.isLt (by omega))), printf_run _ (fmt_llx_n _)]
  rw [put_put, hexLine2]
  simp only [List.append_assoc]
  rfl

/-- C38: `printV128` prints one line with 2 hexadecimal numbers. -/
theorem C38_printV128 (x : V128) (w : World) : printV128 x w =
    .ok ((), { w with out := w.out ++ hexLine (x.toList.map BitVec.toNat) }) := by
  unfold printV128
  rw [CM_bind_run (liftC_run w (rd_ok x 0 (by omega))), CM_bind_run (printf_run _ (fmt_llx_b _))]
  rw [CM_bind_run (liftC_run _ (rd_ok x 1 (by omega))), printf_run _ (fmt_llx_n _)]
  rw [put_put, hexLine2]
  simp only [List.append_assoc]
  rfl

/-- C38: the text of `printM128` determines the matrix. -/
theorem C38_printM128_injective (A B : M128) (hne : A ≠ B) (w : World) :
    ∃ w1 w2, printM128 A w = .ok ((), w1) ∧ printM128 B w = .ok ((), w2) ∧ w1.out ≠ w2.out := by
  refine ⟨_, _, C38_printM128 A w, C38_printM128 B w, fun h => hne ?_⟩
  exact hexText_vec_inj (fun r : Vector (BitVec 64) 2 => r.toList.map BitVec.toNat) (by intro x y; simp)
    (fun x y h => words_inj x y h) (List.append_cancel_left h)

/-- C38: the text of `printV128` determines the vector. -/
theorem C38_printV128_injective (x y : V128) (hne : x ≠ y) (w : World) :
    ∃ w1 w2, printV128 x w = .ok ((), w1) ∧ printV128 y w = .ok ((), w2) ∧ w1.out ≠ w2.out := by
  refine ⟨_, _, C38_printV128 x w, C38_printV128 y w, fun h => hne ?_⟩
  exact words_inj x y (hexLine_inj (by simp) (List.append_cancel_left h))

/-- C38: `printM256` prints one line with 4 hexadecimal numbers for every row. -/
theorem C38_printM256 (A : M256) (w : World) : printM256 A w =
    .ok ((), { w with out := w.out ++ hexText (A.toList.map fun r => r.toList.map BitVec.toNat) }) := by
  refine hexRows (fun r : Vector (BitVec 64) 4 => r.toList.map BitVec.toNat) A _ w fun i w => ?_
  rw [CM_bind_run (liftC_run w (rd2_ok A i 0 i.isLt (by omega))), CM_bind_run (printf_run _ (fmt_llx_b _))]
  rw [CM_bind_run (liftC_run _ (rd2_ok A i 1 i.isLt (by omega))), CM_bind_run (printf_run _ (fmt_llx_b _))]
  rw [CM_bind_run (liftC_run _ (rd2_ok A i 2 i.isLt (by omega))), CM_bind_run (printf_run _ (fmt_llx_b _))]
  rw [CM_bind_run (liftC_run _ (rd2_ok A i 3 i.isLt (by omega))), printf_run _ (fmt_llx_n _)]
  rw [put_put, put_put, put_put, hexLine4]
  simp only [List.append_assoc]
  rfl

/-- C38: `printV256` prints one line with 4 hexadecimal numbers. -/
theorem C38_printV256 (x : V256) (w : World) : printV256 x w =
    .ok ((), { w with out := w.out ++ hexLine (x.toList.map BitVec.toNat) }) := by
  unfold printV256
  rw [CM_bind_run (liftC_run w (rd_ok x 0 (by omega))), CM_bind_run (printf_run _ (fmt_llx_b _))]
  rw [CM_bind_run (liftC_run _ (rd_ok x 1 (by omega))), CM_bind_run (printf_run _ (fmt_llx_b _))]
  rw [CM_bind_run (liftC_run _ (rd_ok x 2 (by omega))), CM_bind_run (printf_run _ (fmt_llx_b _))]
  rw [CM_bind_run (liftC_run _ (rd_ok x 3 (by omega))), printf_run _ (fmt_llx_n _)]
  rw [put_put, put_put, put_put, hexLine4]
  simp only [List.append_assoc]
  rfl

/-- C38: the text of `printM256` determines the matrix. -/
theorem C38_printM256_injective (A B : M256) (hne : A ≠ B) (w : World) :
    ∃ w1 w2, printM256 A w = .ok ((), w1) ∧ printM256 B w = .ok ((), w2) ∧ w1.out ≠ w2.out := by
  refine ⟨_, _, C38_printM256 A w, C38_printM256 B w, fun h => hne ?_⟩
  exact hexText_vec_inj (fun r : Vector (BitVec 64) 4 => r.toList.map BitVec.toNat) (by intro x y; simp)
    (fun x y h => words_inj x y h) (List.append_cancel_left h)

/-- C38: the text of `printV256` determines the vector. -/
theorem C38_printV256_injective (x y : V256) (hne : x ≠ y) (w : World) :
    ∃ w1 w2, printV256 x w = .ok ((), w1) ∧ printV256 y w = .ok ((), w2) ∧ w1.out ≠ w2.out := by
  refine ⟨_, _, C38_printV256 x w, C38_printV256 y w, fun h => hne ?_⟩
  exact words_inj x y (hexLine_inj (by simp) (List.append_cancel_left h))

example : (printM8 exA8 exWorld).toOption.map (fun r => String.ofList r.2.out) =
    some "0xc0\n0x60\n0x30\n0x18\n0xc\n0x6\n0x3\n0x1\n" := by decide +kernel
example : (printV128 #v[0, 0xfedcba9876543210] exWorld).toOption.map (fun r => String.ofList r.2.out) =
    some "0x0 0xfedcba9876543210\n" := by decide +kernel
example : exA4 ≠ exB4 ∧ exA16 ≠ exB16 ∧ exX32 ≠ 0 ∧ exA256 ≠ exB256 := by decide +kernel

end WB
