import Verif.Model.M4riEch

/-!
# M4RI: adding a row to another one, and groups of bits as an index

`/repo/test/github1_M4RI/src/m4ri/mzd.c:284-286` and `/repo/test/github1_M4RI/include/m4ri/mzd.h:1214-1216`.
-/
namespace WB.m4w

/-- `mzd_row_add(M, sourcerow, destrow)`, `/repo/test/github1_M4RI/src/m4ri/mzd.c:284-286` -/
def mzd_row_add (M : Mzd) (sourcerow destrow : Nat) : C Mzd := mzd_row_add_offset M destrow sourcerow 0

/-- `mzd_read_bits_int(M, x, y, n)`, `/repo/test/github1_M4RI/include/m4ri/mzd.h:1214-1216`, `misc.h:99`; the conversion to `int` keeps the lowest 32 bits, as gcc and clang define it. -/
def mzd_read_bits_int (M : Mzd) (x y n : Nat) : C Int := do pure ((← mzd_read_bits M x y n).setWidth 32).toInt

end WB.m4w
