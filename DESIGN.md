# Formal model of WBMatrix

Subject: `/repo` (Nexus-TYF/WBMatrix, C library for matrices over GF(2) used in
white-box cryptography).  Read as text only; never built or run.

## 1. Approach

* **Shallow, function-by-function model in Lean 4.**  Each C function of
  `src/WBMatrix/WBMatrix.c` and `src/WBMatrix/random.c` becomes one Lean function with the
  same control structure, the same loops and the same data layout.  Machine words are
  `BitVec 8/16/32/64` (wrap-around arithmetic), arrays are `Vector _ n`.
* **Undefined behaviour is an outcome.**  Functions live in `C := Except Fault`: every array
  read/write is bounds checked and yields `Fault.oob` when it would leave the array, `%` by
  zero yields `Fault.divZero`, a `printf` argument/conversion mismatch yields
  `Fault.badFormat`, a signed `<<` whose result does not fit yields `Fault.overflow` (in the
  strict reading, see C52), and a `do … while` loop that exceeds the iteration budget given to
  the model yields `Fault.diverge`.  `Fault.abort` is the deliberate end of the program by NTL
  (sizes that do not fit, inverse of a singular matrix).  A theorem `f x = .ok r` therefore includes "no undefined behaviour
  (of the modelled kinds) and termination".
* **Global state.**  `randseed`, `m_index`, `m_intermediateOffset`, stdout and the clock form
  a `World`; random functions live in `CM := StateT World C`.  The clock is an arbitrary
  stream of `time(NULL)` results, so theorems hold for every clock behaviour.
* **Unknown memory.**  Output parameters take the *old* contents of the destination as an
  argument; uninitialised locals are filled from an arbitrary `Env.junk`.  All theorems are
  universally quantified over both.
* **Byte order** is a field of `Env`; sub-word pointer accesses (`(uint8_t*)&x`) are
  modelled by explicit sub-word load/store relative to it.

## 2. Specification layer

`Verif/Spec.lean` contains the definitions needed to read the theorems about the library:
bit (i,j) of a matrix/vector (most significant bit = column 0) and the induced Mathlib
`Matrix (Fin n) (Fin n) (ZMod 2)` / `Fin n → ZMod 2`.  Everything else (product, transpose,
inverse, unit) is Mathlib's.

The bundled ciphers are compared with specifications written from the standards:
`SpecGF.lean` (bytes as polynomials, inversion by exponentiation, circulant maps),
`SpecSM4.lean` (GB/T 32907), `SpecAES.lean` (FIPS 197); both ciphers are checked on the
published test vectors.  `SpecSp.lean` has the notions behind the randomness tests (linear
complexity, runs, chi-square statistic …), `SpecM4riWord.lean` what the words of an M4RI matrix denote.  `SpecGFPoly.lean` connects bytes with Mathlib polynomials.

Layout: `C.lean` execution model; `Model/*` the translated code; `Proof/*` helper lemmas;
`Prop/Cnn.lean` the property theorems with examples (`Prop/Examples.lean` holds the concrete
worlds, matrices and environments the examples use).  Files that repeat one proof for all
sizes were written by the scripts in `tools/`; the generated Lean files are committed and do
not need the scripts.

## 3. Plan per property

Legend: *refinement* = the C result, read as a Mathlib matrix, equals the Mathlib operation.

| id | modelled | proof plan |
|----|----------|-----------|
| C01, C02 | MatMulVec/MatMulNum with parity tables and sub-word loads | loop invariant over rows; refinement to `Matrix.mulVec` |
| C03 | MatMulMat incl. internal transposition | nested loop invariant; refinement to `*` |
| C04 | Mattrans mask/shift networks | invariant: after stage j the low j bits of row and column index are exchanged; the row pairs `(2k·i mod (n-1), +k)` of a stage are disjoint and cover all rows |
| C05, C06 | loops | loop invariant |
| C07, C08 | loops with early return | invariant "all earlier rows equal"; for `isequalV256` the claim is false: prove negation with witness and the exact partial statement |
| C09–C11 | direct, indices are C `int`s (`Int`), out of range is `Fault.oob` | bit-vector lemmas; C11 all other ints |
| C12 | isinvert | Gaussian elimination invariant: determinant preserved, columns < i cleared below the diagonal, unit diagonal; missing pivot ⇒ block-triangular determinant 0 |
| C13, C14 | invs | invariant `⟦A⟧ = ⟦B⟧·A₀`, `⟦B⟧` invertible; triangular + unit det ⇒ back substitution gives I |
| C15, C16 | genMatpair | same invariant, plus: trail replay = inverse of the recorded row-operation product, plus counting bound on `times` |
| C17–C19 | affine functions | from C01, C03, C15 |
| C20–C22 | Matrixcom/Vectorcom/affinecom | loop invariants on sub-word stores; big-endian negation |
| C23, C24 | table functions | whole-table check by kernel evaluation, lifted by lemma on sub-words |
| C25–C27 | random.c | p = 4294967291 prime, p ≡ 3 (mod 4): squaring is injective on each half |
| C28–C32 | rand*, genMatpair | from C25–C27, relational unfolding; violations by witness |
| C33, C34 | 4-bit functions with dirty nibbles | mask lemmas; witnesses |
| C35 | API-level algebra | corollaries of the refinements |
| C36 | purity | partly by typing: deterministic functions are in `C` and have no access to `World`; aliasing of outputs with inputs needs a memory model |
| C37–C39 | printing into a character stream | string lemmas |
| C40 | header vs. source symbol lists | not a semantic property of an execution; list comparison only |
| C41 | straight-line programs over the API (`Verif/Prop/C41.lean`) | refinement by induction over the program: the bits computed by any sequence of calls are those of the Mathlib expressions |
| C42 | genMatpair | the elimination finds a pivot in every column exactly when the drawn matrix is invertible; then the replayed trail returns that matrix |
| C43, C44, C47 | test/WBSM4/WBMatrix/src/sm4.c | round-by-round refinement; ECB/CBC by induction over the blocks on one byte memory with offsets (so overlaps are covered) |
| C45 | wbsm4_gen.c and the encryption in main.c | invariant: state words carry the random affine encodings; the library enters through a record of contracts (`LibOk`) instantiated with the model of the library |
| C46 | sm4_setkey_dec | violated: mode is set to SM4_ENCRYPT |
| C48, C49 | test/WBAES/WBMatrix/src/aes.c | whole tables by kernel evaluation; `gMul` by loop invariant; state functions by refinement to FIPS 197 |
| C50 | genTables.c | tables characterised entry by entry, then rounds; the library enters through a record of contracts |
| C51, C52 | genTables.c called repeatedly; signed shifts | exact result after n calls; negation with the value that overflows |
| C53 | genTables.c | entries of TBoxes as a function of the key; differential property of the S-box by kernel evaluation of the whole table; key schedule is injective |
| C54 | the older library next to the demos | functions with different text are modelled separately and proved equal to the current ones (both refine the same Mathlib expression; loops with a flag = loops with `return`); differences by witness |
| C55 | the demos on the older library | contracts `LibOk` instantiated with the older library |
| C56 | test/RGEMethod_test.c | every step is a row operation, so the determinant stays 1 |
| C57 | test/RLUDMethod_test.c | invariant: finished rows equal the identity on one side of the diagonal; size 256 by an exact account of the out-of-range index |
| C58 | test/WBGEMethod_test.c | the loop runs through the matrices of consecutive seeds; one seed with an invertible and one with a singular matrix per size, checked by the kernel |
| C59 | test/BasisMatrixMethod_test.c, `rand` of the C library an arbitrary function | all 16 pairs of each table checked by the kernel; products by loop invariant; size 128 by null vectors |
| C60 | test/Accuracy_test.c | every block of the program from the theorems on the functions it calls; output as a character stream |
| C61 | randM, genMatpair | a seed for each of the 65536 matrices of size 4 checked by the kernel; upper bound from C29; number of invertible matrices from Mathlib |
| C62 | randM32 to randM256 | second differences of the squares modulo p: nineteen draws determine the generator state |
| C63 | getrandbit of test/LowMCMethod_text.cpp | register polynomial proved primitive with certificates checked by the kernel; the loop as first returns to a subset of the cycle |
| C64 | RandbitMat, InvTMat of test/LowMCMethod_text.cpp | the loops write each bit to its place; rejection loop over the partial sums; for size 4 the exact condition of `isinvertM4` (C34) |
| C65 | numbers and matrices in test/*/matrixlib/matrix_gf2.c | monad with a heap of matrices; M4RI's product, inverse, transpose as parameters with a contract; loops by an invariant on the bits written so far |
| C66 | the functions with a destination | the heap after the call is given exactly; leaks by counting the allocated matrices.  **False**: exact theorems for each failure |
| C67 | IsMatGf2Invertible, GenInvertibleMatGf2, mzd_gauss_delayed | elimination keeps the row space and reaches an echelon form; determinant of a triangular matrix; rejection loop |
| C68 | MatGf2Set, InitMatGf2ByValueArray, InitMatrixFromBitArray | **False** for odd negative values and matrices that are not square; exact behaviour for each |
| C69 | MatGf2Cmp, ExportMatGf2ToStr, ImportMatGf2FromStr, DumpMatGf2 | loops; comparison by words reduced to comparison by bits |
| C70 | affine_transform.c of test/WBSM4/M4RI | on top of the heap model; ownership of temporaries tracked as a finite set (`Ext`, Proof/MatGf2Own); agreement with the model of affineU8/16/32 |
| C71 | wbsm4_gen.c and main.c of test/WBSM4/M4RI | the matrices on the heap denote the affine maps of an abstract table object that satisfies the invariant of C45; encryption is a simulation of the WBMatrix encryption |
| C72 | the same programs, memory | **False** for repeated calls; exact number of live matrices for every execution; unreachable ones counted |
| C73 | genTables.c of test/WBAES/M4RI | the matrices on the heap denote those of an abstract WBMatrix run; both programs run in step (`SimT`), so that the invariants of C50 apply |
| C74 | main.c of test/WBAES/M4RI | **False**; determined for every number of rounds as C51, undefined behaviour as C52 |
| C75 | the same programs, memory | **False**; the simulation counts the matrices left behind, those freed are all distinct |
| C76 | RandMat.cpp, MatrixUtils.cpp | monad with an arbitrary sequence of random bits and a position in it; every function returns a described result or is still drawing (`Run`) |
| C77 | the same functions, range | **False**; exact range, from `Can` (there are bits with which the function returns a given result) |
| C78 | MatrixUtils.cpp | direct; loops by an invariant on the elements written so far |
| C79 | `operator<<` | **False**; output to `cout` and to the given stream are separate texts |
| C80 | wbsm4_gen.cpp and main.cpp of test/WBSM4/NTL | the NTL objects denote the affine maps of an abstract table object that satisfies the invariant of C45; one predicate (`Gen`) carries both "returns with this or is still drawing" and "can return" |
| C81 | genTables.cpp of test/WBAES/NTL | the filling of the tables equals that of the WBMatrix model with the matrices that the NTL objects denote, so that the invariants of C50 apply |
| C82 | main.cpp of test/WBAES/NTL | **False**; determined for every number of rounds as C51 |
| C83 | all of test/github6 that computes (`Model/Github6.lean`, `Model/Cmp.lean`) | **False** for order 1; otherwise Laplace expansion by induction on the order: after the loop `Minor` is the submatrix although it is zeroed on the way; a Hoare logic for the heap monad (`Res`) carries 'returns with this or overflows', the bound n! B^n gives the returns |
| C84 | the same | **False**; exact counts by the same induction |
| C85 | test/github2 (`Model/Github2.lean`) | **False** for order 1; otherwise as C83, without heap and overflow |
| C86 | test/github3 (`Model/Github3.lean`) | **False** for order 1; otherwise as C83; the matrix that `invermmatrix` computes and frees is a result of the model |
| C87 | the same | **False**; exact counts |
| C88 | test/github4 (`Model/Github4.lean`) | **False**; invariants 'left half = right half times matrix' and 'the first j columns are unit columns' for the runs that get through; a kernel computation for one 3 by 3 matrix that does not |
| C89 | test/github7 (`Model/Github7.lean`) | **False**; the same two invariants through three passes for the runs that return; kernel computations for a permutation matrix and for the first pivot search of the test program |
| C90 | test/github5 (`Model/Github5.lean`) | **False**; invariants of one transformation (bounds, last column); a kernel computation for a sequence of random numbers that was found by search |
| C91 | test/randomness/sp800_22_tests.py (`Model/SpMain.lean`) | **False**; the bits of a byte, the replacement in names, a map of files; exact condition for losing the input |
| C92 | gf2matrix.py, binary matrix rank test (`Model/SpRank.lean`) | **False** for matrices that are not square; for square ones invariant of the elimination (the row space is kept, the rows above are reduced); the probabilities by counting matrices of given rank |
| C93 | linear complexity test (`Model/SpLinear.lean`) | Massey's theorem with power series over GF(2): invariants of the connection polynomials, bound for the change of length |
| C94 | gamma_functions.py (`Model/SpGamma.lean`) | **False** for 0; otherwise closed forms for all stages of the continued fraction by downward induction, and an antiderivative for the integral |
| C95 | monobit, block frequency, runs, longest run tests (`Model/SpFreq.lean`) | loop invariants; runs as positions where one starts, longest run as a greatest element |
| C96 | serial, approximate entropy tests (`Model/SpSerial.lean`) | **False** if a statistic is 0; the statistics as sums of squares (de Bruijn graph identities), concavity of the entropy |
| C97 | template tests (`Model/SpTemplate.lean`) | **False**; unbordered words cannot overlap, so the greedy scan is a count; kernel check of the template lists; bounds for the exponential function for the consequence |
| C98 | cumulative sums, random excursions, variant (`Model/SpWalk.lean`) | maxima of prefix sums by induction; unique decomposition of the path; substitution in the normal integral |
| C99 | Maurer's test (`Model/SpMaurer.lean`) | invariant: the table holds the last position of every block |
| C100 | M4RI's product on words (`Model/M4riWord.lean`, spec `SpecM4riWord.lean`) | bits as iterated sums; Gray code by bit arithmetic; tables by induction along the code; parities by following the classes of bits through the mixing steps |
| C101 | M4RI's transposition (`Model/M4riTrans.lean`) | each stage exchanges two bits of row and column number; blocks compose to the whole matrix, the delayed block is part of the invariant |
| C102 | M4RI's echelonisation (`Model/M4riEch.lean`, spec `SpecM4riEch.lean`) | loop invariant: row equivalent to the start, reduced up to the current column, ranks of the block complete; tables of sums as in C100; uniqueness of the reduced form and rank from pivot columns; the endless loop by induction on the fuel |
| C103 | M4RI's inverse | echelonisation of A beside the identity with padding between the halves; the right half is the transforming matrix |
| C104 | C65 to C75 without assumption on M4RI | instance of the contract built from C100, C101, C103 |
| C105 | M4RI's bits, sums, concatenations, copies, random matrices, comparison | bits of each word written; masks of the last word |
| C106 | M4RI's elimination row by row, submatrices, naive inverse | invariant of the pivots found so far, rank of an echelon form from a triangular minor |
| C107 | M4RI's random words and matrices | fibres of a map that turns exclusive or into addition have the same number of elements |
| C108 | M4RI's product after Strassen, with and without addition, and squares | a matrix cut into four blocks as a family of matrices with disjoint places; each step of the schedule changes one block; the sums are checked by ring identities, the rests are added row and column of blocks by row and column; recursion over the number of rows |
| C109 | M4RI's permutations of rows and columns | the exchanges as a product of transpositions; invariants of the array of the permutation, of the mask of columns that stay and of the loop over blocks of rows; the matrix of the permutation from the products |
| C110 | M4RI's cache of matrix headers | induction over all sequences of calls; the invariant says that the blocks form a doubly linked list without empty blocks and that the bits of the blocks are the headers in use |
| C111 | M4RI's cache of blocks of memory | induction over all sequences of calls; each allocated block is in use or in one of 16 entries; two sequences that go wrong with 0 bytes |
| C112 | where the rows of M4RI's matrices and windows lie | invariant of matrices, windows, windows of windows: row i of the window is row base · 2^k + row_offset + i of the matrix; the loops over blocks by induction over the blocks |
| C113 | the memory of M4RI's matrices | induction over all sequences of calls; the blocks in use are a list of addresses and sizes that does not depend on the order |
| C114 | triangular systems from the left (M4RI) | one invariant for all procedures: which rows have been added to which, with their final values; a block of rows extends it, the recursion glues two of them and a product together |
| C115 | triangular systems from the right (M4RI) | the same for columns; the sizes where the recursion fails are computed: two leading binary ones |
| C116 | matrices compiled to row additions (M4RI): the compiler | the heap holds every row once and its first row is the largest as a number read from the right; invariant: what the program so far does to the rest of the matrix gives the matrix back; the rounds are bounded by the number of ones in each column |
| C117 | the execution of such a program | every operation is a transvection on `W` or adds rows of `V`; their product is invertible, so the old contents of `W` never vanish unless they were zero |
| C118 | naive PLUQ factorisation (M4RI) | invariant: the permuted matrix is the sum of the first `s` products of columns of `L` and rows of `U` and of the rest; the rank from the determinants of two submatrices |
| C119 | naive PLE factorisation (M4RI) | the same with pivot columns; the exchanges that compress `L` are followed row by row: to the left of the next pivot, a row below is zero |
| C120 | systems from a PLUQ factorisation (M4RI) | each step as an equation between matrices (C109, C114, C108); with `L * Y = P * B` in the first rows, the rows below decide whether there is a solution |
| C121 | kernel from a PLUQ factorisation (M4RI) | `U = [U1 U2]`: the columns of `[U1⁻¹ * U2; 1]`, permuted, are a basis because `L` and `U1` are injective |
| C122 | echelon form from a PLE factorisation (M4RI) | what is left is `E` with zeros below; `A = V * L' * R` with `L` extended to an invertible matrix `L'`; the factorisation is a parameter that satisfies `Factors` |
| C123 | first row of zeros (M4RI) | the bits that count in a row, then induction over the rows from the last one upwards; rows of zeros in between are the counterexample |
| C124 | triangular parts (M4RI) | the bits cleared in each row; with a matrix that is given the source does not occur in the result |
| C125 | PLUQ from PLE (M4RI) | `U = E * Qᵀ`; in row `a` the exchanges up to `a` move only entries between the diagonal and the pivot, which are zero, so that those behind the diagonal suffice; the PLE factorisation is a parameter that satisfies `FactorsPerm` |
| C126 | systems and kernel from the matrix (M4RI) | C125 and then C120, C121 |
| C127 | reduced echelon form from PLUQ (M4RI) | `U = T * Y` with `Y` the identity matrix followed by the solutions; `Y * Q` has the columns of the identity matrix at the pivots, and solving a triangular system keeps the zeros before them; `A = Pᵀ * L' * T' * R` with invertible extensions |
| C128 | compression of `L` (M4RI) | the bits after every exchange of columns and after every word that is written, for all `r1`, `n1`, `r2`; `Compressed` says row by row what stands where |
| C129 | clearing and copying a row (M4RI) | every bit afterwards, for the three kinds of offsets; what `mzd_row_clear_offset` does between 0 and 64 is stated for all matrices |
| C130 | equality (M4RI) | the two loops with an early end; words are equal up to the mask exactly if the entries are |
| C131 | density (M4RI) | the six additions in parallel of the bit count as sums of groups of bits; then the loops over words, and how many columns they cover |
| C132 | groups of bits (M4RI) | one lemma for changes of one or two neighbouring words, then every bit for each of the functions |
| C133 | hash (M4RI) | the loop fails if one of its steps does; the sum of the words of a row is determined by the entries |
| C134 | reversing, spreading and packing bits (M4RI) | each step of the reversal as a permutation of indices; induction over the cases that fall through |
| C135 | a word as text (M4RI) | the loop with the position in the buffer as part of the invariant |
| C136 | printing (M4RI) | the text of the words before the last and of the last one are the text of a row, by induction over columns |
| C137 | reading JCF files (M4RI) | induction over the list from its end; an entry is described by the numbers before it |
| C138 | random bits, words with `_MSC_VER`, matrices from a callback (M4RI) | a bijection between the results that give 0 and the numbers below `RAND_MAX / 2`; the word is linear in the results of `rand`; an invariant that counts the calls |
| C139 | loading and unloading the library (M4RI) | an invariant for all programs: the blocks of the code book and those of the program are exactly the memory that is in use outside the cache |
| C140 | adding rows, groups of bits as an index (M4RI) | the words of the row one by one; the value of the word in 32 bits |

Status and exact coverage of every property are in `MANIFEST.json`.

## 4. Trusted base

* **Kernel and axioms.**  Lean 4.33 kernel.  The theorems use no axioms but `propext`,
  `Classical.choice` and `Quot.sound`; `AXIOMS.md` lists them per theorem (written by
  `tools/mkaxioms.py` from `#print axioms`).  No own axioms, no `sorry`, no `native_decide`, no
  `bv_decide`.  Whole tables (parity tables, S-boxes, primality by trial division) are evaluated
  by the kernel (`decide +kernel`), and lifted to all inputs by lemmas.
* **Translation.**  The hand translation C → Lean is trusted; each definition cites the lines
  it renders.  `tools/gen_symbols.py` extracts the declared and defined names for C40 from the
  text of `/repo`.
* **C implementation assumptions.**  `uint8_t … uint64_t` have exact width, `int` and
  `unsigned int` have 32 bits, `uint64_t` promotes like `unsigned long long`; type-punned
  sub-word accesses through `uint8_t*/uint16_t*/uint32_t*` behave as byte-level accesses in the
  byte order of the machine (strictly, ISO C's effective-type rule makes the
  `uint16_t*`/`uint32_t*` puns undefined; the library relies on compilers accepting them).
* **printf.**  Formats with the conversions `%d`, `%x` and `%llx`; `uint8_t`/`uint16_t` arguments are promoted to `int` and are accepted by
  `%x` (their values are representable in both types); a 64-bit argument for `%x` is
  `Fault.badFormat`.  stdout never fails.
* **Clock.**  `time(NULL)` is an arbitrary stream, truncated to 32 bits; nothing relates
  successive readings unless a theorem says so.
* **Stack.**  Uninitialised automatic variables hold arbitrary values from `Env.junk`.  The
  same `Env` is used for all calls of one run; since the theorems hold for every `Env` and
  never compare two reads of one uninitialised cell, this is not restrictive.
* **M4RI.**  In the programs that use M4RI its product, inverse and transpose are parameters, and
  the theorems that need them assume `M4ri.Ok` (the result is the product, the inverse of an
  invertible matrix, the transpose, for matrices that are not empty); nothing is assumed about its random bits.  A matrix is an
  array of bits at an address that is never used twice; `malloc` never fails.  C104 shows that
  M4RI's own algorithms meet this assumption.  C100 to C109 are about these algorithms on words; there a matrix is a two-dimensional array of words with a
  first word (for windows), and memory from `mzd_init` is zero.
* **NTL.**  The library itself is described, not modelled: a matrix or vector over GF(2) is its size
  and its elements; `SetDims` keeps the elements if the number of columns stays the same,
  new rows may then hold anything (`stale`);
  product, sum, determinant and inverse are those of Mathlib; reading or writing an element that
  does not exist is `Fault.oob`, operands whose sizes do not fit and the inverse of a singular
  matrix are `Fault.abort`; `random_GF2` returns the next element of an arbitrary sequence.
  Numbers of type `long` have `W` bits (64 in the demos).
* **Aliasing.**  By default a call gets objects by value and the theorem says what is stored
  to the output; the C36 `*_inplace` theorems treat one object used as both operand and
  destination where the C text allows it, SM4 ECB/CBC are modelled on a common byte memory.

## 5. What is modelled

| file | modelled |
|------|----------|
| src/WBMatrix/random.c | all |
| src/WBMatrix/WBMatrix.c | all functions (7 sizes) |
| include/WBMatrix/WBMatrix.h | types, parity/bit tables, list of declared functions (C40) |
| test/WBSM4/WBMatrix/src/sm4.c | all |
| test/WBSM4/WBMatrix/src/wbsm4_gen.c | all |
| test/WBSM4/WBMatrix/test/main.c | the encryption function and its macros (lines 25-98); not `main` and its timing loops |
| test/WBAES/WBMatrix/src/aes.c | all except `printState` |
| test/WBAES/WBMatrix/src/genTables.c | `mixColumns_table`, `aes_128_table_encrypt`, `computeTables`; not `printTables` |
| test/RGEMethod_test.c, test/RLUDMethod_test.c, test/WBGEMethod_test.c, test/BasisMatrixMethod_test.c | all matrix generators, tables and trails; not `main` and its timing loops |
| test/LowMCMethod_text.cpp | bit generator, tables and matrix generators; not `main` and its timing loops |
| test/Accuracy_test.c | all (`main` and everything it prints) |
| test/github1_M4RI/src/matrixlib/matrix_gf2.c (identical: test/WBSM4/M4RI, test/WBAES/M4RI) | all |
| test/WBSM4/M4RI/src/matrixlib/affine_transform.c | all |
| test/WBSM4/M4RI/src/matrixlib/wbsm4_gen.c, sm4.c | all (sm4.c is the one of test/WBSM4/WBMatrix) |
| test/WBSM4/M4RI/test/main.c | sm4_wb_enc; main without timing and output |
| test/WBAES/M4RI/src/matrixlib/genTables.c, aes.c | as in test/WBAES/WBMatrix (the parts without matrices are the same text) |
| test/WBAES/M4RI/test/main.c | main without timing and output |
| test/NTL/src/RandMat.cpp, test/WBAES/NTL/src/RandMat.cpp | all |
| test/WBSM4/NTL/src/matrixlib/MatrixUtils.cpp | all |
| test/WBSM4/NTL/src/matrixlib/wbsm4_gen.cpp, sm4.cpp | all (sm4.cpp is the one of test/WBSM4/WBMatrix) |
| test/WBSM4/NTL/test/main.cpp | sm4_wb_enc; main without timing and output |
| test/WBAES/NTL/src/genTables.cpp, aes.cpp | as in test/WBAES/WBMatrix (the parts without matrices are the same text) |
| test/WBAES/NTL/test/main.cpp | main without timing and output |
| test/github1_M4RI/src/m4ri/mzd.c, io.c, include/m4ri/mzd.h | the functions that the layer uses and that only move bits, incl. `mzd_gauss_delayed`; `mzd_mul_m4rm`, `mzd_inv_m4ri`, `mzd_transpose` and `mzd_randomize` are parameters |
| the same, misc.c, brilliantrussian.c, strassen.c and mzp.c, word level (C100 to C109) | `mzd_mul_m4rm`, `mzd_make_table`, `_mzd_combine*`, `mzd_mul_naive`, `_mzd_mul_va`, `mzd_transpose` with all its routines except `_mzd_transpose_multiblock`, graycode.c, parity.h, `mzd_read_bits`, `mzd_set_ui`, `mzd_copy`, `_mzd_echelonize_m4ri` with `full` = 1 and k up to 10 (tables, row processing, pivot search), `mzd_inv_m4ri`, `mzd_add`, `mzd_concat`, `mzd_stack`, `mzd_from_str`, `mzd_randomize`, `m4ri_random_word` (from results of `random`), `mzd_cmp`, `mzd_echelonize_naive`, `mzd_submatrix` and `mzd_invert_naive` (both with a null first argument), `mzd_addmul_naive`, `mzd_addmul_m4rm`, `mzd_mul` with a null first argument, `mzd_addmul`, `_mzd_mul_even`, `_mzd_sqr_even`, `_mzd_addmul_even`, `_mzd_addsqr_even`, mzp.c without `mzp_print`, `mzp_free*`, `mzp_init_window` and `_mzd_compress_l`, `mzd_col_swap_in_rows`, windows (a window is passed by value and written back, so windows that overlap are not modelled; one thread; uninitialised memory has the same contents for every transposition) |
| the same, mzd.c:36-147, mmc.c, misc.h (C110, C111) | `log2_floor`, `mzd_t_malloc`, `mzd_t_free`, `m4ri_mmc_malloc`, `m4ri_mmc_free`, `m4ri_mmc_cleanup` on addresses that the system never gives out twice; not threads, a `malloc` that fails, and the contents of the memory |
| the same, mzd.c:149-282, 1903-1993, mzd.h:196-308, 450-554, addresses (C112, C113) | `mzd_init`, `mzd_init_window`, `mzd_free`, `mzd_row`, `mzd_first_row`, `mzd_first_row_next_block`, `mzd_row_to_block`, `mzd_rows_in_block`, `mzd_remaining_rows_in_block`, the rows that `mzd_col_swap` and `mzd_col_swap_in_rows` visit; not the words; a pointer may leave its block as long as it is not used |
| the same, triangular.c:106-458 and triangular_russian.c:14-328, words (C114, C115) | `mzd_trsm_lower_left`, `mzd_trsm_upper_left`, `mzd_trsm_lower_right` with their recursions, base cases and tables, `_mzd_trsm_upper_right_base`; not `mzd_trsm_upper_right` above 64 columns and `mzd_trtri_upper`; `k` of the tables and alignment are parameters; the triangular matrix and the right-hand side share no words; one thread |
| the same, djb.c:26-170 and djb.h:35-113, words (C116, C117) | the heap of rows, `djb_compile`, `djb_push_back`, `djb_apply_mzd`; the contents of new memory are a parameter; the three arrays of a program are one list, last operation first; not `djb_info`, `djb_init`, `djb_free` |
| the same, ple.c:190-293, words (C118, C119) | `_mzd_pluq_naive`, `_mzd_ple_naive`; not `mzd_pluq`, `mzd_ple` and the procedures they call |
| the same, solve.c:37-118 and 152-184, mzd.c:1997-2008, mzd.h:598-606 and 640-650, words (C120, C121) | `mzd_pluq_solve_left`, the part of `mzd_kernel_left_pluq` after the factorisation, `mzd_is_zero`, `mzd_clear_bits`, `mzd_xor_bits`; not `mzd_solve_left`, which calls `_mzd_pluq` |
| the same, echelonform.c:38-138 and mzd.c:2207-2257, words (C122 to C124) | `mzd_echelonize_pluq` with `full` = 0 (`mzd_ple` is a parameter), `mzd_first_zero_row`, `mzd_extract_u`, `mzd_extract_l`; `full` = 1 is C127 |
| the same, ple.c:42-62 and solve.c:30-35, 120-184, words (C125, C126) | `mzd_pluq`, `_mzd_pluq` (`_mzd_ple` is a parameter), `mzd_solve_left`, `_mzd_solve_left`, `mzd_kernel_left_pluq` as a whole |
| the same, echelonform.c:38-138, words (C127) | `mzd_echelonize_pluq` with `full` = 1; not the code for `#if 0` |
| the same, mzp.c:351-461, words (C128) | `_mzd_compress_l` as a whole |
| the same, mzd.c:288-306, 1601-1621, 2010-2029, words (C129, C130) | `mzd_row_clear_offset`, `mzd_copy_row` (`B` and `A` do not share memory, or it is the same matrix with different rows), `mzd_equal` |
| the same, mzd.c:2151-2205, words (C131) | `m4ri_bitcount`, `_mzd_density`, `mzd_density`; numerator and denominator instead of their quotient as a `double` |
| the same, include/m4ri/mzd.h:598-629, 640-655, 1300-1306, debug_dump.h:27-37, words (C132, C133) | `mzd_xor_bits`, `mzd_and_bits`, `mzd_clear_bits`, `mzd_hash`, `calculate_hash`, `rotate_word`; a shift by 64 or more is a fault |
| the same, include/m4ri/misc.h:321-411, misc.c:45-57, io.c:46-67, io.h:68-72 (C134–C136) | `m4ri_swap_bits`, `m4ri_shrink_bits`, `m4ri_spread_bits`, `m4ri_word_to_str`, `mzd_fprint_row`, `mzd_fprint`; a stream is the list of characters written to it |
| the same, io.c:307-363 (C137) | `mzd_from_jcf`; the file is the header and the list of numbers that `fscanf` returns |
| the same, misc.h:515-521, misc.c:58-65, mzd.c:1566-1576 (C138) | `m4ri_coin_flip`, `m4ri_random_word` with `_MSC_VER` and 15 bits of `rand`, `mzd_randomize_custom`; the callback is a function of what `data` points to and does not use the matrix |
| the same, graycode.c:54-79, misc.c:75-91 (C139) | `m4ri_build_all_codes`, `m4ri_destroy_all_codes`, `m4ri_init`, `m4ri_fini`: the memory only, with the memory model of C111; what the code book contains is C100's `m4ri_codebook` |
| the same, mzd.c:284-286, mzd.h:1214-1216 (C140) | `mzd_row_add`, `mzd_read_bits_int`; the conversion to `int` takes the lowest 32 bits |
| test/github2/src/Inverse-matrix.c | all but `cin` and `cout` (terminal) |
| test/github2/test/InvMatrix_test.c | InvSMatM8 … InvSMatM64 |
| test/github3/src/matriz_inversa.c | determinant, cofactors, adjugate, inverse, product, transposition with the heap; not the input and output functions |
| test/github3/test/InvMatrix_test.c | main without timing and output |
| test/github4/src/matrixinverse.c | all but `read` and `write` (files) |
| test/github4/test/InvMatrix_test.c | initM8 … initM128, InvSMatM8 … InvSMatM128; main without timing and output |
| test/github5/src/invertiblematrix.c, test/github5/test/InvMatrix_test.c | getIdentityMatrix, getInvertibleMatrix, InvTMatM; not the output functions, freeMatrix and main |
| test/github6/Inverse_of_matrix.c | determinant, transpose, cofactor, main without timing; not `multi` and `print` (never called) |
| test/randomness/gf2matrix.py | all but `print_matrix` |
| test/randomness/gamma_functions.py | upper_incomplete_gamma, gammaincc (the others are not called) |
| test/randomness/sp800_22_{monobit, frequency_within_block, runs, longest_run_ones_in_a_block, binary_matrix_rank, linear_complexity, serial, approximate_entropy, non_overlapping_template_matching, overlapping_template_matching, cumulative_sums, random_excursion, random_excursion_variant, maurers_universal}_test.py | all but output and `__main__` examples (`dft` is not modelled: it calls a library for the Fourier transform) |
| test/randomness/sp800_22_tests.py | reading of bits, options, names of files; not the output |
| test/github7/inverseMatrix.c, test/github7/main.c | all but qMatrixPrintf and qMatrixSwapColumns (never called); main without timing and output |

Not modelled: the other `main` programs, the other timing programs in `test/*.c`, and the third-party
libraries and their ports under `test/NTL`, `test/github*`, `test/*/M4RI`, `test/*/NTL` (except as listed).  The
demos bundle an older copy of the library (version 3.1.1); C45 and C50–C53 run the demo code on
the current library (`Lib.current`), C55 on the bundled one (`Lib.bundled`).  Of the bundled
library, the functions whose text differs from the current version are modelled
(`Model/Old.lean`, C54); functions that differ only in where loop variables are declared share
the definition of the current library.  Not modelled: its `printU64` and `printU128`.

Simplifications common to all definitions: pointers to whole objects are values; a loop
counter that the code keeps below its bound is a natural number; local variables that are
assigned before use are `let`s.

The comparison programs (test/github2 … github7) compute with `float` and `double`.  The model
(`Model/Cmp.lean`) takes these as exact rational numbers: rounding, infinities and NaN are not
modelled, and a division by zero is an outcome of its own.  So C83, C85, C86, C88 and C89 are statements
about the algorithms; the `int` arithmetic of test/github6 is modelled with its overflow.

The randomness tests (test/randomness) are Python programs.  An exception is a fault
(`IndexError` = `oob`, `ZeroDivisionError` = `divZero`), integers are unbounded as in Python, and
`float` is an exact rational or real number.  A list that a function changes in place is a value
that it returns.  Not modelled: dft_test (fast Fourier transform of numpy).

## 6. Findings

Behaviour that contradicts what a user of the API would expect; each is a theorem.

1. `isequalV256` compares only words 0 and 1 (C08).
2. Five functions are declared but never defined: `printbitM256`, `affineU256`, `HWU256`,
   `genaffinepairM256`, `affinemixM256` (C40).
3. `printU64` and `printU128` pass a 64-bit argument to `%x` (C39).
4. `randV64` never seeds: in a fresh process it returns a constant, whatever the seed (C32).
5. The 4-bit functions disagree on dirty high nibbles (C33, C34).
6. `invs` on a singular matrix silently returns an invertible matrix that is no inverse (C14).
7. Two calls of a random function return the same object when counter xor clock collide (C30).
8. Every randomised result is a function of (seed counter xor clock) of one seeding (C29);
   `genMatpair` returns the matrix it drew whenever that is invertible (C42).
9. Concatenation and 64-bit draws depend on the byte order of the machine (C22, C29).
10. `sm4_setkey_dec` records the mode `SM4_ENCRYPT` (C46); `sm4_crypt_ecb` processes
    ⌈length/16⌉ whole blocks (C47).
11. `aes_128_encrypt` uses a hard-coded zero key and destroys its input (C49).
12. `computeTables` permutes the caller's expanded key, so that repeated calls produce wrong
    tables unless the number of calls is 1 modulo 4; `main.c` makes 100000 calls (C51).
13. `computeTables` shifts an `int` out of range (C52).
14. The 8×8 encodings of the white-box AES cancel and the tables reveal the key (C53).
15. The older library bundled with the demos was better in two points: its `randV64` obeys the
    seed, and its 4-bit transpose and product tolerate dirty high nibbles (C54).
16. `upM256` of test/RLUDMethod_test.c indexes word 4 of a row of 4 words, and its last 64 rows
    are never randomised (C57).  `lowM128`, `lowM256`, `upM128` and `upM256` read uninitialised
    words, harmlessly.
17. Rejection sampling in test/WBGEMethod_test.c has no bound; with a clock that moves in step
    with the seed counter it never ends (C58).
18. The 128-bit tables of test/BasisMatrixMethod_test.c are corrupt (row 111 repeats row 96 in most
    matrices): `MatrixpairM128` never returns an inverse pair, and `InvTMatM128` practically never
    an invertible matrix (C59).
19. The accuracy test of the library fails on big-endian machines, in all six lines on
    concatenation, and returns 0 nevertheless (C60).
20. `genMatpair` can return at most 2^32 matrices of each size, a vanishing fraction of the
    invertible ones from size 8 on (C61).
21. The matrix generators of test/LowMCMethod_text.cpp xor random bits onto an uninitialised local
    matrix.  The result depends on the stack, and `InvTMatM4` never returns when the high halves of the
    stack bytes are linearly independent (C64).
22. In the matrix layer on top of M4RI, `MatGf2Copy(a, &a)` and `MatGf2Diag` onto an operand use freed
    memory, and `AddMatToU32`, `AddMatToU64` and `GenMatAddU8/16/32` lose a matrix per call (C66).
23. `InitMatGf2ByValueArray` multiplies the row index by the number of rows: out of bounds or the
    wrong matrix unless the matrix is square; `MatGf2Set` with an odd negative value stores 0 except
    in every 64th column (C68).  `GenInvertibleMatGf2` never returns if the sizes differ (C67).
24. The M4RI based SM4 demo loses 1344 matrices per call of `sm4_wb_gen_tables` after the first;
    its test program calls it 100000 times, 134,398,656 matrices in all (C72).
25. `ApplyAffineTransform` with the vector of the transform as destination uses freed memory (C70).
26. `computeTables` of the M4RI based AES demo loses 275,456 matrices per call; its test program calls it
    100000 times (C75), with wrong tables in the end (C74), as in the WBMatrix demo.
27. The generators on top of NTL draw every row with exactly one 1 again: the identity and all
    permutation matrices are never returned, and sizes 1 and 2 never end (C77).
28. `operator<<` of `RandMat` writes to `cout` whatever stream it is given, and reads elements that do
    not exist after `init(n, 0)` on a new object if the matrix happens to be invertible (C79).
29. test/NTL/test/matmul_test.cpp measures something else than it says: the part for 4x4 matrices
    calls `M4_1.init(8)` (lines 135-146), and the part for 16x16 prints `8*8` (read, not modelled).
30. The AES demo on NTL repeats this part of finding 26: `main` ends with wrong tables (C82).
31. The programs in test/github2, github3, github4, github6 invert over the rational numbers, not
    over GF(2): a matrix can be invertible for them and not for the library (C83_other_matrices).
32. Three of them are wrong for order 1: github2 stores 1 (C85), github3 and github6 store 0
    (C86, C83).  github3 frees an uninitialised pointer for order 0.
33. github6 divides by zero for a singular matrix instead of reporting it (C83_singular_violated).
34. github6 leaves 362880 blocks per inversion behind (C84), github3 630 (C87).  github3 frees the
    inverse before anybody can use it.
35. github4 looks for the largest instead of the absolutely largest pivot and so divides by zero for
    matrices that have an inverse; its timing loop inverts the identity matrix in all rounds but the
    first (C88).
36. github7 exchanges rows where it should exchange columns and so divides by zero even for a
    permutation matrix; its test program does so in the first step.  It overwrites the matrix of the
    caller, so a second call returns the identity (C89).
37. The generator of github5 can return a singular matrix, never changes the last column, reads
    uninitialised memory, and computes a remainder modulo zero for size 1 (C90).
38. `sp800_22_tests.py` empties its input file if the name has no `.bin` in it, and its option `--be`
    means the opposite of what the help text says (C91).
39. `gf2matrix.rank` is right for square matrices only; `computeRank` is wrong even for some of these (C92).
40. `berelekamp_massey` cuts off the last feedback coefficient (C93).
41. `gammaincc(a, 0)` is never 1: a division by zero for whole `a`, otherwise 0 (C94); so perfectly
    balanced blocks never pass `frequency_within_block_test` (C95).
42. `sp800_22_tests.py` uses `args.ttestname`, which does not exist, to report an unknown test name (seen while reading, not modelled).
43. `serial_test` and `approximate_entropy_test` divide by zero for sequences whose words are spread
    perfectly evenly (C96).
44. Both template tests miss an occurrence at the end of a block; the non-overlapping one divides by
    the square of what it calls `sigma`, which already is the variance, and so accepts a constant
    sequence for all templates of at least five bits (C97).
45. `mzd_transpose` aborts for a matrix with rows but no columns or with columns but no rows, because it
    copies instead of transposing (C101); so a product over an empty common dimension aborts (C100).
46. `mzd_echelonize_m4ri` with k = 0 never ends for at most three rows and at least 87382 columns, since
    the table size it computes is 0 (C102).
47. `mzd_inv_m4ri` returns an invertible matrix for a singular one, without any sign of failure (C103).
48. `mzd_copy`, `mzd_cmp` and `mzd_randomize` use word -1 of the rows of a matrix that has no columns (C105).
    An earlier version of the bit-level model of `mzd_copy` (C65, C66) missed this and has been corrected.
49. `mzd_submatrix` uses the word after the last one of a row, and shifts by 64, if the number of the first column
    is no multiple of 64 and the number of columns is a multiple of 64 (C106).  For some widths that word is padding inside the
    row stride; the shift is undefined in any case.
50. `mzd_invert_naive` never returns the null pointer it has for singular matrices, since it tests the rank of
    the matrix beside the identity, which is never 0 (C106).
51. `mzd_mul` with a cutoff below 128 aborts for many sizes, for example 100 × 100 matrices with the cutoff 64 (C108).
52. `mzd_mul` and `mzd_addmul` with a cutoff below 128 access memory outside of the matrices if the common dimension
    is 86 to 127 and the product has at least 128 rows and columns (C108).
53. A cutoff of 2^29 or more, such as `INT_MAX` for "never", overflows in the comparison `4 * cutoff` (C108).
54. `mzd_apply_p_right` and `mzd_apply_p_right_trans` lose a column if the permutation is shorter than the rows and moves a column behind
    its end; the versions that exchange columns one by one (`_mzd_apply_p_right*`) do not (C109).
55. The functions that permute columns divide by zero for a matrix with rows but without columns (C109).
56. `mzd_apply_p_right_even_capped` with `start_col` > 0 leaves out the last exchanges instead of the first, so it does not undo
    `mzd_apply_p_right_trans_even_capped`, and moves columns before `start_col` (C109).
57. `mzp_copy` to a shorter permutation writes behind its end, and elements that are not indices of columns are used without a check (C109).
58. `m4ri_mmc_malloc(0)` after `m4ri_mmc_cleanup` returns a block that has been given back to the system (C111).
59. A block of 0 bytes handed to `m4ri_mmc_free` is lost when the next block is freed (C111).
60. `mzd_remaining_rows_in_block` is too large for windows that start in the middle of a block of memory, and `mzd_col_swap_in_rows` then reads and writes behind the end
    of the block (C112; needs a window over three blocks, that is, a matrix of more than 1 GB).
61. `mzd_init_window` fails its assertion for an empty window behind the last row of a matrix whose rows fill one block exactly (C112).
62. `mzd_row` computes in type `int` and overflows behind 2^31 words, 16 GB (C112).
63. `mzd_trsm_upper_left` hands its cutoff to `_mzd_addmul` as it is, where the other procedures call `mzd_addmul`, which rounds it to a multiple of 64: with 1000 rows, 512 to 1023 columns
    and the cutoff 40 a factor without columns is copied, and memory outside of the matrix is accessed (C114).
64. `mzd_trsm_lower_right` runs into finding 52 for cutoffs below 128, at least 128 rows, and numbers of columns whose number of whole words begins with the binary digits 11 and that have at least
    22 more columns, such as 214 to 255 (C115).
65. `mzd_trsm_lower_left` with a right-hand side without columns accesses the word with the index -1 (C114).
66. `djb_compile` uses an element of the heap that was never written as the number of a row if the matrix has columns and no rows (C116).
67. `djb_compile` compares whole words of rows, so for a window the bits to its right decide; the program can be wrong, even empty (C116).
68. `djb_apply_mzd` does not write `m * V` into `W` as documented but adds it to an invertible transformation of the old `W`; the result is right exactly if `W` was zero (C117).
69. `djb_apply_mzd` changes columns to the right of a window (C117).
70. `mzd_pluq_solve_left` accesses memory outside of `B` when `B` has no columns, and with cutoffs such as 40 for ranks such as 1000 (C120).
71. `mzd_kernel_left_pluq` accesses memory outside of the matrices with the same cutoffs and ranks (C121).
72. `mzd_first_zero_row` does not return the first row of zeros but the number of rows up to the last one that is not zero; in windows with fewer than 64 columns it looks at bits behind the last column (C123).
73. `mzd_extract_u` and `mzd_extract_l` do not read their second argument when they are given a matrix for the result; `mzd_extract_l` clears bits next to a window (C124).
74. `mzd_echelonize_pluq` and `mzd_first_zero_row` access a word before the first one for matrices without columns (C122, C123).
75. `mzd_pluq`, `mzd_solve_left`, `mzd_kernel_left_pluq` and `mzd_echelonize_pluq` with `full` = 1 divide by zero for matrices without columns (C125 to C127).
76. `_mzd_compress_l`, which `_mzd_ple` calls on the matrix it is given, sets columns to zero that are behind the last column of a window, in the rows below the pivots: its comment says that everything is zero there (C128).
77. `mzd_row_clear_offset` clears the wrong side: between 0 and 64 the columns before the offset are set to zero and those behind it, in the same word, are left. Above 64 it shifts by more than 63 bits (C129).
78. `mzd_copy_row` and `mzd_equal` access a word before the row for matrices without columns (C129, C130).
79. `mzd_density` ignores the last 64 columns if their number is a multiple of 64 above 64 (C131).
80. `mzd_and_bits` clears all bits of the words that the group lies in except those of the group, and takes the values from the other end of the word than `mzd_xor_bits` (C132).
81. `rotate_word` shifts by `m4ri_radix - w` instead of `m4ri_radix - shift`, so `mzd_hash`, and `mzd_info`, which prints it, have undefined behaviour unless the words of each row add up to a number from 1 to 64; a row of zeros is enough (C133).
82. `mzd_fprint_row`, and so `mzd_print`, reads a word before the row for matrices without columns (C136).
83. `mzd_from_jcf` checks no lower bounds: a file whose first number is positive makes it write to row -1, a zero to column -1 (C137).
84. `m4ri_coin_flip` is documented as uniform but returns 1 for two results of `rand` more than 0, since `RAND_MAX/2` is rounded down (C138).
85. `mzd_row_add` and `mzd_row_add_offset` with the same row twice clear the bits behind the last column, which in a window are entries of the matrix around it (C140).

## 7. Testing the theorems

`seeded/LOG.jsonl` records edits of the model made in a scratch copy, and which theorems then
fail.  A theorem counts as failed when its proof, or the proof of a lemma it depends on, is
rejected.  This is weaker than a refutation: the statement may still be true of the edited model and
only its proof no longer fit.  The statements were not refuted one by one, so `theorems_failed`
and `claim_broken` are upper bounds.  Known cases of statements that remain true are
`C138_coin_violated` when the two results of the coin flip are exchanged and `C140_index_partial`
when the index has 64 bits.  For edits of `Model/M4riCodes.lean` all theorems of C139 are listed,
because they share lemmas.  Edits marked "repaired" remove a bug of the code; there it is the
`_violated` theorems that should fail.  Not all planned edits for C129 to C140 were run: the log
has only those whose run ended.
