import Verif.Proof.AccuracyLib

/-!
# The accuracy test: the sections without concatenation (helper lemmas)

Generated by `tools/gen_c60.py`.
-/
namespace WB.accuracy
open Matrix

attribute [local irreducible] bitTest numTest vecTest matTest invTest affTest mixTest TEST

theorem bits_ok (env : Env) (S : Stack) :
    Prints ["-----bitwise operation (read/set/flip) test-----\n", "4bit: PASS\n", "8bit: PASS\n", "16bit: PASS\n", "32bit: PASS\n", "64bit: PASS\n", "128bit: PASS\n", "256bit: PASS\n"] (bits env S) := by
  unfold bits
  refine Prints.printf (by decide +kernel) ?_
  refine Prints.seq (a := ["4bit: PASS\n"]) (bitTest_ok (good4 env) (by decide +kernel) _ _ _) ?_
  refine Prints.seq (a := ["8bit: PASS\n"]) (bitTest_ok (good8 env) (by decide +kernel) _ _ _) ?_
  refine Prints.seq (a := ["16bit: PASS\n"]) (bitTest_ok (good16 env) (by decide +kernel) _ _ _) ?_
  refine Prints.seq (a := ["32bit: PASS\n"]) (bitTest_ok (good32 env) (by decide +kernel) _ _ _) ?_
  refine Prints.seq (a := ["64bit: PASS\n"]) (bitTest_ok (good64 env) (by decide +kernel) _ _ _) ?_
  refine Prints.seq (a := ["128bit: PASS\n"]) (bitTest_ok (good128 env) (by decide +kernel) _ _ _) ?_
  exact bitTest_ok (good256 env) (by decide +kernel) _ _ _

theorem nums_ok (env : Env) (S : Stack) :
    Prints ["-----mat mul num test-----\n", "4bit: PASS\n", "8bit: PASS\n", "16bit: PASS\n", "32bit: PASS\n", "64bit: PASS\n"] (nums env S) := by
  unfold nums
  refine Prints.printf (by decide +kernel) ?_
  refine Prints.seq (a := ["4bit: PASS\n"]) (numTest_ok (good4 env) _ (num4 env) (by decide +kernel) _ (by decide +kernel) _ _) ?_
  refine Prints.seq (a := ["8bit: PASS\n"]) (numTest_ok (good8 env) _ (num8 env) (by decide +kernel) _ trivial _ _) ?_
  refine Prints.seq (a := ["16bit: PASS\n"]) (numTest_ok (good16 env) _ (num16 env) (by decide +kernel) _ trivial _ _) ?_
  refine Prints.seq (a := ["32bit: PASS\n"]) (numTest_ok (good32 env) _ (num32 env) (by decide +kernel) _ trivial _ _) ?_
  exact numTest_ok (good64 env) _ (num64 env) (by decide +kernel) _ trivial _ _

theorem vecs_ok (env : Env) (S : Stack) :
    Prints ["-----mat mul vec test-----\n", "4bit: PASS\n", "8bit: PASS\n", "16bit: PASS\n", "32bit: PASS\n", "64bit: PASS\n", "128bit: PASS\n", "256bit: PASS\n"] (vecs env S) := by
  unfold vecs
  refine Prints.printf (by decide +kernel) ?_
  refine Prints.seq (a := ["4bit: PASS\n"]) (vecTest_ok (good4 env) (by decide +kernel) _ _ _ _ _) ?_
  refine Prints.seq (a := ["8bit: PASS\n"]) (vecTest_ok (good8 env) (by decide +kernel) _ _ _ _ _) ?_
  refine Prints.seq (a := ["16bit: PASS\n"]) (vecTest_ok (good16 env) (by decide +kernel) _ _ _ _ _) ?_
  refine Prints.seq (a := ["32bit: PASS\n"]) (vecTest_ok (good32 env) (by decide +kernel) _ _ _ _ _) ?_
  refine Prints.seq (a := ["64bit: PASS\n"]) (vecTest_ok (good64 env) (by decide +kernel) _ _ _ _ _) ?_
  refine Prints.seq (a := ["128bit: PASS\n"]) (vecTest_ok (good128 env) (by decide +kernel) _ _ _ _ _) ?_
  exact vecTest_ok (good256 env) (by decide +kernel) _ _ _ _ _

theorem mats_ok (env : Env) (S : Stack) :
    Prints ["-----mat mul mat (includes mat transpositon) test-----\n", "4bit: PASS\n", "8bit: PASS\n", "16bit: PASS\n", "32bit: PASS\n", "64bit: PASS\n", "128bit: PASS\n", "256bit: PASS\n"] (mats env S) := by
  unfold mats
  refine Prints.printf (by decide +kernel) ?_
  refine Prints.seq (a := ["4bit: PASS\n"]) (matTest_ok (good4 env) (by decide +kernel) _ _ _ _ _ _ _) ?_
  refine Prints.seq (a := ["8bit: PASS\n"]) (matTest_ok (good8 env) (by decide +kernel) _ _ _ _ _ _ _) ?_
  refine Prints.seq (a := ["16bit: PASS\n"]) (matTest_ok (good16 env) (by decide +kernel) _ _ _ _ _ _ _) ?_
  refine Prints.seq (a := ["32bit: PASS\n"]) (matTest_ok (good32 env) (by decide +kernel) _ _ _ _ _ _ _) ?_
  refine Prints.seq (a := ["64bit: PASS\n"]) (matTest_ok (good64 env) (by decide +kernel) _ _ _ _ _ _ _) ?_
  refine Prints.seq (a := ["128bit: PASS\n"]) (matTest_ok (good128 env) (by decide +kernel) _ _ _ _ _ _ _) ?_
  exact matTest_ok (good256 env) (by decide +kernel) _ _ _ _ _ _ _

theorem invs_ok (env : Env) (S : Stack) :
    Prints ["-----invertible and inverse test-----\n", "4bit: PASS\n", "8bit: PASS\n", "16bit: PASS\n", "32bit: PASS\n", "64bit: PASS\n", "128bit: PASS\n", "256bit: PASS\n"] (invs env S) := by
  unfold invs
  refine Prints.printf (by decide +kernel) ?_
  refine Prints.seq (a := ["4bit: PASS\n"]) (invTest_ok (good4 env) (by decide +kernel) _ _ _ _ _) ?_
  refine Prints.seq (a := ["8bit: PASS\n"]) (invTest_ok (good8 env) (by decide +kernel) _ _ _ _ _) ?_
  refine Prints.seq (a := ["16bit: PASS\n"]) (invTest_ok (good16 env) (by decide +kernel) _ _ _ _ _) ?_
  refine Prints.seq (a := ["32bit: PASS\n"]) (invTest_ok (good32 env) (by decide +kernel) _ _ _ _ _) ?_
  refine Prints.seq (a := ["64bit: PASS\n"]) (invTest_ok (good64 env) (by decide +kernel) _ _ _ _ _) ?_
  refine Prints.seq (a := ["128bit: PASS\n"]) (invTest_ok (good128 env) (by decide +kernel) _ _ _ _ _) ?_
  exact invTest_ok (good256 env) (by decide +kernel) _ _ _ _ _

theorem affs_ok (env : Env) (S : Stack) :
    Prints ["-----invertible affine and affine transform test-----\n", "4bit: PASS\n", "8bit: PASS\n", "16bit: PASS\n", "32bit: PASS\n", "64bit: PASS\n", "128bit: PASS\n"] (affs env S) := by
  unfold affs
  refine Prints.printf (by decide +kernel) ?_
  refine Prints.seq (a := ["4bit: PASS\n"]) (affTest_ok (goodA4 env) (by decide +kernel) _ (by decide +kernel) _ _ _ _) ?_
  refine Prints.seq (a := ["8bit: PASS\n"]) (affTest_ok (goodA8 env) (by decide +kernel) _ trivial _ _ _ _) ?_
  refine Prints.seq (a := ["16bit: PASS\n"]) (affTest_ok (goodA16 env) (by decide +kernel) _ trivial _ _ _ _) ?_
  refine Prints.seq (a := ["32bit: PASS\n"]) (affTest_ok (goodA32 env) (by decide +kernel) _ trivial _ _ _ _) ?_
  refine Prints.seq (a := ["64bit: PASS\n"]) (affTest_ok (goodA64 env) (by decide +kernel) _ trivial _ _ _ _) ?_
  exact affTest_ok (goodA128 env) (by decide +kernel) _ trivial _ _ _ _

theorem mixes_ok (env : Env) (S : Stack) :
    Prints ["-----affine mix test-----\n", "4bit: PASS\n", "8bit: PASS\n", "16bit: PASS\n", "32bit: PASS\n", "64bit: PASS\n", "128bit: PASS\n"] (mixes env S) := by
  unfold mixes
  refine Prints.printf (by decide +kernel) ?_
  refine Prints.seq (a := ["4bit: PASS\n"]) (mixTest_ok (goodA4 env) (by decide +kernel) _ (by decide +kernel) _ _ _ _ _ _ _ _) ?_
  refine Prints.seq (a := ["8bit: PASS\n"]) (mixTest_ok (goodA8 env) (by decide +kernel) _ trivial _ _ _ _ _ _ _ _) ?_
  refine Prints.seq (a := ["16bit: PASS\n"]) (mixTest_ok (goodA16 env) (by decide +kernel) _ trivial _ _ _ _ _ _ _ _) ?_
  refine Prints.seq (a := ["32bit: PASS\n"]) (mixTest_ok (goodA32 env) (by decide +kernel) _ trivial _ _ _ _ _ _ _ _) ?_
  refine Prints.seq (a := ["64bit: PASS\n"]) (mixTest_ok (goodA64 env) (by decide +kernel) _ trivial _ _ _ _ _ _ _ _) ?_
  exact mixTest_ok (goodA128 env) (by decide +kernel) _ trivial _ _ _ _ _ _ _ _

end WB.accuracy
