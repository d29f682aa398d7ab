import Verif.Prop.C38

/-!
# C39 — `printU` prints the number

(violated for 64 and 128 bits)
-/
namespace WB
open Matrix

/-- C39: `printU8` prints the number in hexadecimal. -/
theorem C39_printU8 (x : BitVec 8) (w : World) : printU8 x w =
    .ok ((), { w with out := w.out ++ hexLine [x.toNat] }) := by
  refine (printf_run _ (fmt_x _)).trans ?_
  rw [BitVec.toNat_setWidth_of_le (by omega)]
  rfl

/-- C39: `printU16` prints the number in hexadecimal. -/
theorem C39_printU16 (x : BitVec 16) (w : World) : printU16 x w =
    .ok ((), { w with out := w.out ++ hexLine [x.toNat] }) := by
  refine (printf_run _ (fmt_x _)).trans ?_
  rw [BitVec.toNat_setWidth_of_le (by omega)]
  rfl

/-- C39: `printU32` prints the number in hexadecimal. -/
theorem C39_printU32 (x : BitVec 32) (w : World) : printU32 x w =
    .ok ((), { w with out := w.out ++ hexLine [x.toNat] }) := by
  refine (printf_run _ (fmt_x _)).trans ?_
  rfl

/-- C39: `printU256` prints the four words in hexadecimal. -/
theorem C39_printU256 (x : Vector (BitVec 64) 4) (w : World) : printU256 x w =
    .ok ((), { w with out := w.out ++ hexLine (x.toList.map BitVec.toNat) }) := by
  unfold printU256
  rw [CM_bind_run (liftC_run w (rd_ok x 0 (by omega))), CM_bind_run (printf_run _ (fmt_llx_b _))]
  rw [CM_bind_run (liftC_run _ (rd_ok x 1 (by omega))), CM_bind_run (printf_run _ (fmt_llx_b _))]
  rw [CM_bind_run (liftC_run _ (rd_ok x 2 (by omega))), CM_bind_run (printf_run _ (fmt_llx_b _))]
  rw [CM_bind_run (liftC_run _ (rd_ok x 3 (by omega))), printf_run _ (fmt_llx_n _)]
  rw [put_put, put_put, put_put, hexLine4]
  simp only [List.append_assoc]
  rfl

/-- C39 is false for `printU64`: every call has undefined behaviour, because the `uint64_t` argument is printed with
the conversion `%x`, which expects an `unsigned int`. -/
theorem C39_printU64_violated (x : BitVec 64) (w : World) : printU64 x w = .error .badFormat := rfl

/-- C39 is false for `printU128`, for the same reason. -/
theorem C39_printU128_violated (x : Vector (BitVec 64) 2) (w : World) :
    printU128 x w = .error .badFormat := by
  unfold printU128
  rw [CM_bind_run (liftC_run w (rd_ok x 0 (by omega)))]
  rfl

/-- The part of C39 that holds for all sizes: `printU<n>` for n in 8, 16, 32, 256 prints the value. Missing: n in 64,
128, see the `_violated` theorems. -/
theorem C39_printU_partial (a : BitVec 8) (b : BitVec 16) (c : BitVec 32) (d : Vector (BitVec 64) 4) (w : World) :
    (∃ w', printU8 a w = .ok ((), w') ∧ w'.out = w.out ++ hexLine [a.toNat]) ∧
    (∃ w', printU16 b w = .ok ((), w') ∧ w'.out = w.out ++ hexLine [b.toNat]) ∧
    (∃ w', printU32 c w = .ok ((), w') ∧ w'.out = w.out ++ hexLine [c.toNat]) ∧
    (∃ w', printU256 d w = .ok ((), w') ∧ w'.out = w.out ++ hexLine (d.toList.map BitVec.toNat)) :=
  ⟨⟨_, C39_printU8 a w, rfl⟩, ⟨_, C39_printU16 b w, rfl⟩, ⟨_, C39_printU32 c w, rfl⟩,
    ⟨_, C39_printU256 d w, rfl⟩⟩

example : (printU16 0xbeef exWorld).toOption.map (fun r => String.ofList r.2.out) = some "0xbeef\n" := by
  decide +kernel

end WB
