#!/usr/bin/env python3
"""Writes lean/Verif/Prop/C37.lean .. C39.lean (printing)."""
from propslib import *
TOP = {4: '0x08', 8: '0x80', 16: '0x8000', 32: '0x80000000', 64: '0x8000000000000000'}
# ---------------------------------------------------------------- C37
b = '''
theorem bitF_one (b : Bool) : (bitF b = 1) ↔ b = true := by cases b <;> decide

theorem bitRow_eq {R : Type} {n : Nat} (bit : R → Nat → Bool) (A : Vector R n) (i : Fin n) :
    (List.ofFn fun j : Fin n => [if matOf n bit A i j = 1 then '1' else '0', ' ']).flatten =
    (List.ofFn fun j : Fin n => [if bit A[i] j then '1' else '0', ' ']).flatten := by
  congr 2
  funext j
  simp only [matOf, bitF_one]

/-- The row loop of `printbit`. -/
theorem bitRows {R : Type} {n : Nat} (bit : R → Nat → Bool) (A : Vector R n) (f : Nat → Unit → CM Unit)
    (w : World) (hf : ∀ (i : Fin n) w, f i () w = .ok ((), w.put
      ((List.ofFn fun j : Fin n => [if bit A[i] j then '1' else '0', ' ']).flatten ++ ['\\n']))) :
    (forUp 0 n () f >>= fun _ => printf "\\n" []) w = .ok ((), w.put (bitText (matOf n bit A))) := by
  rw [CM_bind_run (outFor n f _ (fun _ => ()) w hf), printf_run _ (s := ['\\n']) rfl, put_put]
  unfold bitText
  simp only [bitRow_eq]

theorem bitW2 (x : Vector (BitVec 64) 2) :
    (List.ofFn fun j : Fin 128 => [if bitW x j then '1' else '0', ' ']).flatten =
      bitDigits x[0] 63 64 ++ bitDigits x[1] 63 64 := by
  rw [show (List.ofFn fun j : Fin 128 => [if bitW x j then '1' else '0', ' ']) =
    List.ofFn (n := 64 + 64) fun j => [if bitW x j then '1' else '0', ' '] from rfl, List.ofFn_add,
    List.flatten_append]
  unfold bitDigits
  congr 3
  · funext j
    have h : (j : Nat) / 64 = 0 := by omega
    have h' : (j : Nat) % 64 = j := by omega
    simp [bitW, h, h']
  · funext j
    have h : (64 + (j : Nat)) / 64 = 1 := by omega
    have h' : (64 + (j : Nat)) % 64 = j := by omega
    simp only [bitW, Fin.val_natAdd, h, h']
    rfl
'''
for n in ALL[:-1]:
    if n < 128:
        b += f'''
/-- C37: `printbitM{n}` prints the {n} rows of {n} digits. -/
theorem C37_printbitM{n} (A : M{n}) (w : World) :
    printbitM{n} A w = .ok ((), {{ w with out := w.out ++ bitText (mat{n} A) }}) := by
  refine bitRows (bitS {n}) A _ w fun i w => ?_
  rw [CM_bind_run (liftC_run w (rd_ok A i i.isLt)),
    CM_bind_run (bitLoop {n-1} {n} (by omega) (by omega) {TOP[n]} (by decide) A[(i : Nat)] w),
    printf_run _ (s := ['\\n']) rfl, put_put]
  rfl
'''
    else:
        b += f'''
/-- C37: `printbitM128` prints the 128 rows of 128 digits. -/
theorem C37_printbitM128 (A : M128) (w : World) :
    printbitM128 A w = .ok ((), {{ w with out := w.out ++ bitText (mat128 A) }}) := by
  refine bitRows bitW A _ w fun i w => ?_
  rw [CM_bind_run (liftC_run w (rd2_ok A i 0 i.isLt (by omega))),
    CM_bind_run (bitLoop 63 64 (by omega) (by omega) 0x8000000000000000 (by decide) A[(i : Nat)][0] w),
    CM_bind_run (liftC_run _ (rd2_ok A i 1 i.isLt (by omega))),
    CM_bind_run (bitLoop 63 64 (by omega) (by omega) 0x8000000000000000 (by decide) A[(i : Nat)][1] _),
    printf_run _ (s := ['\\n']) rfl, put_put, put_put, bitW2, List.append_assoc]
  rfl
'''
b += '''
/-- C37: different matrices over GF(2) have different texts. -/
theorem C37_bitText_injective {n : Nat} (A B : Matrix (Fin n) (Fin n) (ZMod 2)) (h : bitText A = bitText B) :
    A = B := bitText_inj h
'''
for n in ALL[:-1]:
    if n == 4:
        b += '''
/-- C37: different 4×4 matrices give different outputs (the high nibble is not printed, so the stored matrices are
assumed to be clean). -/
theorem C37_printbitM4_injective (A B : M4) (hA : CleanM4 A) (hB : CleanM4 B) (hne : A ≠ B) (w : World) :
    ∃ w1 w2, printbitM4 A w = .ok ((), w1) ∧ printbitM4 B w = .ok ((), w2) ∧ w1.out ≠ w2.out := by
  refine ⟨_, _, C37_printbitM4 A w, C37_printbitM4 B w, fun h => hne (mat4_inj hA hB ?_)⟩
  exact bitText_inj (List.append_cancel_left h)
'''
    else:
        b += f'''
/-- C37: different matrices give different outputs. -/
theorem C37_printbitM{n}_injective (A B : M{n}) (hne : A ≠ B) (w : World) :
    ∃ w1 w2, printbitM{n} A w = .ok ((), w1) ∧ printbitM{n} B w = .ok ((), w2) ∧ w1.out ≠ w2.out := by
  refine ⟨_, _, C37_printbitM{n} A w, C37_printbitM{n} B w, fun h => hne (mat{n}_inj ?_)⟩
  exact bitText_inj (List.append_cancel_left h)
'''
b += '''
example : (printbitM4 exA4 exWorld).toOption.map (fun r => String.ofList r.2.out) =
    some "1 1 0 0 \\n0 1 1 0 \\n0 0 1 1 \\n0 0 0 1 \\n\\n" := by decide +kernel
example : CleanM4 exA4 ∧ CleanM4 exB4 ∧ exA4 ≠ exB4 := by decide +kernel
example : exA8 ≠ exB8 ∧ exA128 ≠ exB128 := by decide +kernel
'''
write('C37', ['Verif.Proof.Print', 'Verif.Proof.Inj', 'Verif.Prop.Examples'], '# C37 — `printbit` shows the matrix', b)

# ---------------------------------------------------------------- C38
b = '''
/-- C38: what `0x…` means: the digits are hexadecimal digits, denote the number, and there is no leading zero. -/
theorem C38_hexWord (x : Nat) : ∃ d, hexWord x = '0' :: 'x' :: d ∧ hexNum d = x ∧
    (∀ c ∈ d, c ∈ "0123456789abcdef".toList) ∧ (0 < x → d.head? ≠ some '0') :=
  ⟨_, rfl, hexNum_toDigits x, mem_toDigits x, head_toDigits x⟩

theorem hexRows {R : Type} {n : Nat} (ws : R → List Nat) (A : Vector R n) (f : Nat → Unit → CM Unit)
    (w : World) (hf : ∀ (i : Fin n) w, f i () w = .ok ((), w.put (hexLine (ws A[i])))) :
    forUp 0 n () f w = .ok ((), w.put (hexText (A.toList.map ws))) := by
  rw [outFor n f _ (fun _ => ()) w hf]
  congr 3
  unfold hexText
  congr 1
  apply List.ext_getElem
  · simp
  · intro i h1 h2
    simp

theorem hexText_vec_inj {R : Type} {n : Nat} (ws : R → List Nat) (hl : ∀ x y, (ws x).length = (ws y).length)
    (hws : ∀ x y, ws x = ws y → x = y) {A B : Vector R n}
    (h : hexText (A.toList.map ws) = hexText (B.toList.map ws)) : A = B := by
  have := hexText_inj (by simp) (by simp; intros; exact hl _ _) h
  have := List.map_injective_iff.2 (fun x y h => hws x y h) this
  exact Vector.toList_inj.1 this

theorem words_inj {l w : Nat} (x y : Vector (BitVec w) l)
    (h : x.toList.map BitVec.toNat = y.toList.map BitVec.toNat) : x = y :=
  Vector.toList_inj.1 (List.map_injective_iff.2 (fun _ _ h => BitVec.eq_of_toNat_eq h) h)

theorem fmt_x (v : BitVec 32) : fmtOut "0x%x\\n".toList [.u32 v] = .ok (hexLine [v.toNat]) := by
  simp only [hexLine, List.map, List.intercalate_singleton]; rfl
theorem fmt_llx (v : BitVec 64) : fmtOut "0x%llx\\n".toList [.u64 v] = .ok (hexLine [v.toNat]) := by
  simp only [hexLine, List.map, List.intercalate_singleton]; rfl
theorem fmt_llx_n (v : BitVec 64) : fmtOut "0x%llx\\n".toList [.u64 v] = .ok (hexWord v.toNat ++ ['\\n']) := rfl
theorem fmt_llx_b (v : BitVec 64) : fmtOut "0x%llx ".toList [.u64 v] = .ok (hexWord v.toNat ++ [' ']) := rfl

theorem hexLine2 (x : Vector (BitVec 64) 2) : hexLine (x.toList.map BitVec.toNat) =
    (hexWord x[0].toNat ++ [' ']) ++ (hexWord x[1].toNat ++ ['\\n']) := by
  have : x.toList = [x[0], x[1]] := by
    apply List.ext_getElem
    · simp
    · intro i h1 h2
      have : i = 0 ∨ i = 1 := by simp at h2; omega
      rcases this with rfl | rfl <;> rfl
  rw [this]
  simp [hexLine, List.intercalate]

theorem hexLine4 (x : Vector (BitVec 64) 4) : hexLine (x.toList.map BitVec.toNat) =
    (hexWord x[0].toNat ++ [' ']) ++ ((hexWord x[1].toNat ++ [' ']) ++ ((hexWord x[2].toNat ++ [' ']) ++
      (hexWord x[3].toNat ++ ['\\n']))) := by
  have : x.toList = [x[0], x[1], x[2], x[3]] := by
    apply List.ext_getElem
    · simp
    · intro i h1 h2
      have : i = 0 ∨ i = 1 ∨ i = 2 ∨ i = 3 := by simp at h2; omega
      rcases this with rfl | rfl | rfl | rfl <;> rfl
  rw [this]
  simp [hexLine, List.intercalate]

theorem hexLine_inj {a b : List Nat} (hl : a.length = b.length) (h : hexLine a = hexLine b) : a = b := by
  unfold hexLine at h
  exact hexLine_body_inj hl (List.append_cancel_right h)
'''
def toN(n, v): return f'{v}.toNat'
def lem(n):
    if n == 32: return 'fmt_x _'
    if n == 64: return 'fmt_llx _'
    return 'fmt_x _'
for n in ALL:
    l = max(1, n // 64)
    if n <= 64:
        sw = '' if n >= 32 else ', toNat32'
        b += f'''
/-- C38: `printM{n}` prints one line with one hexadecimal number for every row. -/
theorem C38_printM{n} (A : M{n}) (w : World) : printM{n} A w =
    .ok ((), {{ w with out := w.out ++ hexText (A.toList.map fun x => [x.toNat]) }}) := by
  refine hexRows (fun x => [x.toNat]) A _ w fun i w => ?_
  rw [CM_bind_run (liftC_run w (rd_ok A i i.isLt)), printf_run _ ({lem(n)})]
'''
        if n < 32:
            b += f'''  rw [BitVec.toNat_setWidth_of_le (by omega)]
'''
            b = b  # keep
        b += f'''  rfl

/-- C38: `printV{n}` prints one hexadecimal number. -/
theorem C38_printV{n} (x : V{n}) (w : World) : printV{n} x w =
    .ok ((), {{ w with out := w.out ++ hexLine [x.toNat] }}) := by
  refine (printf_run _ ({lem(n)})).trans ?_
'''
        if n < 32:
            b += f'''  rw [BitVec.toNat_setWidth_of_le (by omega)]
'''
        b += f'''  rfl

/-- C38: the text of `printM{n}` determines the matrix. -/
theorem C38_printM{n}_injective (A B : M{n}) (hne : A ≠ B) (w : World) :
    ∃ w1 w2, printM{n} A w = .ok ((), w1) ∧ printM{n} B w = .ok ((), w2) ∧ w1.out ≠ w2.out := by
  refine ⟨_, _, C38_printM{n} A w, C38_printM{n} B w, fun h => hne ?_⟩
  exact hexText_vec_inj (fun x : BitVec {max(n,8)} => [x.toNat]) (fun _ _ => rfl)
    (fun x y h => BitVec.eq_of_toNat_eq (List.cons.inj h).1) (List.append_cancel_left h)

/-- C38: the text of `printV{n}` determines the vector. -/
theorem C38_printV{n}_injective (x y : V{n}) (hne : x ≠ y) (w : World) :
    ∃ w1 w2, printV{n} x w = .ok ((), w1) ∧ printV{n} y w = .ok ((), w2) ∧ w1.out ≠ w2.out := by
  refine ⟨_, _, C38_printV{n} x w, C38_printV{n} y w, fun h => hne ?_⟩
  have := hexLine_inj (a := [x.toNat]) (b := [y.toNat]) rfl (List.append_cancel_left h)
  exact BitVec.eq_of_toNat_eq (List.cons.inj this).1
'''
    else:
        def steps(acc):
            s = ''
            for k in range(l):
                world = 'w' if k == 0 else '_'
                last = k == l - 1
                s += f'  rw [CM_bind_run (liftC_run {world} ({acc(k)}))'
                s += (f', CM_bind_run (printf_run _ (fmt_llx_b _))]\n' if not last else f', printf_run _ (fmt_llx_n _)]\n')
            s += f'  rw [{", ".join(["put_put"]*(l-1))}, hexLine{l}]\n'
            return s
        b += f'''
/-- C38: `printM{n}` prints one line with {l} hexadecimal numbers for every row. -/
theorem C38_printM{n} (A : M{n}) (w : World) : printM{n} A w =
    .ok ((), {{ w with out := w.out ++ hexText (A.toList.map fun r => r.toList.map BitVec.toNat) }}) := by
  refine hexRows (fun r : Vector (BitVec 64) {l} => r.toList.map BitVec.toNat) A _ w fun i w => ?_
{steps(lambda k: f'rd2_ok A i {k} i.isLt (by omega)')}  simp only [List.append_assoc]
  rfl

/-- C38: `printV{n}` prints one line with {l} hexadecimal numbers. -/
theorem C38_printV{n} (x : V{n}) (w : World) : printV{n} x w =
    .ok ((), {{ w with out := w.out ++ hexLine (x.toList.map BitVec.toNat) }}) := by
  unfold printV{n}
{steps(lambda k: f'rd_ok x {k} (by omega)')}  simp only [List.append_assoc]
  rfl

/-- C38: the text of `printM{n}` determines the matrix. -/
theorem C38_printM{n}_injective (A B : M{n}) (hne : A ≠ B) (w : World) :
    ∃ w1 w2, printM{n} A w = .ok ((), w1) ∧ printM{n} B w = .ok ((), w2) ∧ w1.out ≠ w2.out := by
  refine ⟨_, _, C38_printM{n} A w, C38_printM{n} B w, fun h => hne ?_⟩
  exact hexText_vec_inj (fun r : Vector (BitVec 64) {l} => r.toList.map BitVec.toNat) (by intro x y; simp)
    (fun x y h => words_inj x y h) (List.append_cancel_left h)

/-- C38: the text of `printV{n}` determines the vector. -/
theorem C38_printV{n}_injective (x y : V{n}) (hne : x ≠ y) (w : World) :
    ∃ w1 w2, printV{n} x w = .ok ((), w1) ∧ printV{n} y w = .ok ((), w2) ∧ w1.out ≠ w2.out := by
  refine ⟨_, _, C38_printV{n} x w, C38_printV{n} y w, fun h => hne ?_⟩
  exact words_inj x y (hexLine_inj (by simp) (List.append_cancel_left h))
'''
b += '''
example : (printM8 exA8 exWorld).toOption.map (fun r => String.ofList r.2.out) =
    some "0xc0\\n0x60\\n0x30\\n0x18\\n0xc\\n0x6\\n0x3\\n0x1\\n" := by decide +kernel
example : (printV128 #v[0, 0xfedcba9876543210] exWorld).toOption.map (fun r => String.ofList r.2.out) =
    some "0x0 0xfedcba9876543210\\n" := by decide +kernel
example : exA4 ≠ exB4 ∧ exA16 ≠ exB16 ∧ exX32 ≠ 0 ∧ exA256 ≠ exB256 := by decide +kernel
'''
write('C38', ['Verif.Proof.Print', 'Verif.Prop.Examples'], '# C38 — the text of `printM`/`printV` determines the value', b)

# ---------------------------------------------------------------- C39
b = ''
for n in (8, 16, 32):
    b += f'''
/-- C39: `printU{n}` prints the number in hexadecimal. -/
theorem C39_printU{n} (x : BitVec {n}) (w : World) : printU{n} x w =
    .ok ((), {{ w with out := w.out ++ hexLine [x.toNat] }}) := by
  refine (printf_run _ (fmt_x _)).trans ?_
''' + ('' if n == 32 else '  rw [BitVec.toNat_setWidth_of_le (by omega)]\n') + '''  rfl
'''
s = ''
for k in range(4):
    s += f'  rw [CM_bind_run (liftC_run {"w" if k == 0 else "_"} (rd_ok x {k} (by omega)))' + (', CM_bind_run (printf_run _ (fmt_llx_b _))]\n' if k < 3 else ', printf_run _ (fmt_llx_n _)]\n')
b += f'''
/-- C39: `printU256` prints the four words in hexadecimal. -/
theorem C39_printU256 (x : Vector (BitVec 64) 4) (w : World) : printU256 x w =
    .ok ((), {{ w with out := w.out ++ hexLine (x.toList.map BitVec.toNat) }}) := by
  unfold printU256
{s}  rw [put_put, put_put, put_put, hexLine4]
  simp only [List.append_assoc]
  rfl

/-- C39 is false for `printU64`: every call has undefined behaviour, because the `uint64_t` argument is printed with
the conversion `%x`, which expects an `unsigned int`. -/
theorem C39_printU64_violated (x : BitVec 64) (w : World) : printU64 x w = .error .badFormat := rfl

/-- C39 is false for `printU128`, for the same reason. -/
theorem C39_printU128_violated (x : Vector (BitVec 64) 2) (w : World) :
    printU128 x w = .error .badFormat := by
  unfold printU128
  rw [CM_bind_run (liftC_run w (rd_ok x 0 (by omega)))]
  rfl

/-- The part of C39 that holds for all sizes: `printU<n>` for n in 8, 16, 32, 256 prints the value. Missing: n in 64,
128, see the `_violated` theorems. -/
theorem C39_printU_partial (a : BitVec 8) (b : BitVec 16) (c : BitVec 32) (d : Vector (BitVec 64) 4) (w : World) :
    (∃ w', printU8 a w = .ok ((), w') ∧ w'.out = w.out ++ hexLine [a.toNat]) ∧
    (∃ w', printU16 b w = .ok ((), w') ∧ w'.out = w.out ++ hexLine [b.toNat]) ∧
    (∃ w', printU32 c w = .ok ((), w') ∧ w'.out = w.out ++ hexLine [c.toNat]) ∧
    (∃ w', printU256 d w = .ok ((), w') ∧ w'.out = w.out ++ hexLine (d.toList.map BitVec.toNat)) :=
  ⟨⟨_, C39_printU8 a w, rfl⟩, ⟨_, C39_printU16 b w, rfl⟩, ⟨_, C39_printU32 c w, rfl⟩,
    ⟨_, C39_printU256 d w, rfl⟩⟩

example : (printU16 0xbeef exWorld).toOption.map (fun r => String.ofList r.2.out) = some "0xbeef\\n" := by
  decide +kernel
'''
write('C39', ['Verif.Prop.C38'], '''
# C39 — `printU` prints the number

(violated for 64 and 128 bits)
''', b)
