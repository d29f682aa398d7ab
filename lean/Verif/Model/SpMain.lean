import Verif.Model.SpBase

/-!
# Model of `/repo/test/randomness/sp800_22_tests.py`: command line, files and bits

The file system is a function from path names to contents; two names mean the same file only if they are equal, and every file can be
opened for writing.  What `fo.write` has written is in a buffer and not in the file until the program ends.

Not modelled: the standard input as source (`filename == None`), what is printed, Python 2.
-/
namespace WB.sp

/-- A byte string. -/
abbrev Bytes := List Nat

/-- Path names are strings; the file system gives the contents of the files that exist. -/
abbrev Files := List Char → Option Bytes

/-- `sp800_22_tests.py:41-52`: the bits of one byte, appended to `bitlist` -/
def bitsOfByte (bigendian : Bool) (byte : Nat) (bitlist : List Nat) : List Nat :=
  ((List.range 8).foldl (fun (st : Nat × List Nat) i =>
    if bigendian then (st.1 <<< 1, st.2 ++ [(st.1 &&& 0x80) >>> 7])
    else (st.1, st.2 ++ [(st.1 >>> i) &&& 1])) (byte, bitlist)).2

/-- `sp800_22_tests.py:38-54`: reading chunks of 16384 bytes until nothing is left -/
def readChunks (bigendian : Bool) (data : Bytes) (bitlist : List Nat) : List Nat :=
  let bytes := data.take 16384
  if _h : bytes = [] then bitlist
  else readChunks bigendian (data.drop 16384) (bytes.foldl (fun bitlist byte => bitsOfByte bigendian byte bitlist) bitlist)
termination_by data.length
decreasing_by
  have : data ≠ [] := by
    rintro rfl
    exact _h rfl
  have := List.length_pos_iff.2 this
  simp only [List.length_drop]
  omega

/-- `open(filename, "rb")` in the directory `cwd` -/
def resolve (cwd filename : List Char) : List Char :=
  match filename with
  | '/' :: _ => filename
  | _ => cwd ++ '/' :: filename

/-- `sp800_22_tests.py:32-56` for a file name; `abort` is the exception for a file that does not exist -/
def read_bits_from_file (fs : Files) (cwd filename : List Char) (bigendian : Bool) : C (List Nat) :=
  match fs (resolve cwd filename) with
  | none => .error .abort
  | some data => .ok (readChunks bigendian data [])

/-- `s.replace('.bin', '.txt')` -/
def replaceBin : List Char → List Char
  | '.' :: 'b' :: 'i' :: 'n' :: s => '.' :: 't' :: 'x' :: 't' :: replaceBin s
  | c :: s => c :: replaceBin s
  | [] => []

/-- `sp800_22_tests.py:62`: `action='store_false'`, the value of `args.be` -/
def parse_be (given : Bool) : Bool := !given

/-- `sp800_22_tests.py:68-69`, `105-107` and `116`: the file for the results is opened, then the bits are read -/
def prepare (fs : Files) (cwd filename : List Char) (given : Bool) : C (Files × List Nat) := do
  let bigendian := parse_be given
  let fname := replaceBin (cwd ++ '/' :: filename)
  let fs := fun p => if p = fname then some [] else fs p
  let bits ← read_bits_from_file fs cwd filename bigendian
  pure (fs, bits)

end WB.sp
