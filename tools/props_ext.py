"""Properties C41 onwards, read by mkprops.py."""
EXT = []
def p(id, title, statement, quantifier, why, anchors):
    EXT.append(dict(id=id, title=title, statement=statement, quantifier=quantifier, why_tests_cant=why, anchors=anchors))
p("C41",
  "Programs of library calls compute what they say",
  "For every finite sequence of assignments to matrix and vector variables (zero, identity, copy, sum, product, transpose, inverse of an invertible matrix, matrix times vector, vector sum), performing the corresponding WBMatrix calls one after the other leaves in every variable the value the assignments have over GF(2). The destination of a call may be one of its operands. For n=4 the variables hold clean objects (high nibbles zero) in the beginning, and they do at the end.",
  "all programs of any length, all variable assignments, n in {4,8,16,32,64,128,256}, both byte orders",
  "unbounded call sequences with arbitrary aliasing; needs exact functional correctness of each call and independence of the old contents of the output",
  ["src/WBMatrix/WBMatrix.c:initM*", "src/WBMatrix/WBMatrix.c:identityM*", "src/WBMatrix/WBMatrix.c:copyM*", "src/WBMatrix/WBMatrix.c:MatAddMatM*", "src/WBMatrix/WBMatrix.c:MatMulMatM*", "src/WBMatrix/WBMatrix.c:MattransM*", "src/WBMatrix/WBMatrix.c:invsM*", "src/WBMatrix/WBMatrix.c:MatMulVecM*", "src/WBMatrix/WBMatrix.c:VecAddVecV*"])
p("C42",
  "genMatpair hands out the matrix it drew",
  "If the matrix T that randM<n> draws from the seed value used by genMatpairM<n> (seed counter plus one, xor the second clock reading) is invertible, then genMatpairM<n> stores exactly T and its inverse and draws no further random numbers; in particular SetRandSeed(s+1); randM<n>(&T) shows in advance the result of SetRandSeed(s); genMatpairM<n>(&A,&B) in the same second. If T is singular a different matrix is returned.",
  "all sizes, seeds, clocks, prior contents, all drawn matrices",
  "equality of two random constructions over 2^32 seeds and all matrices; a test samples a few seeds",
  ["src/WBMatrix/WBMatrix.c:genMatpairM8", "src/WBMatrix/WBMatrix.c:genMatpairM256", "src/WBMatrix/WBMatrix.c:randM8"])
p("C43",
  "Bundled SM4 encrypts as the standard says",
  "After sm4_setkey_enc(&ctx,key), sm4_crypt_ecb(&ctx,mode,length,in,out) writes to every output block the SM4 (GB/T 32907) encryption of the corresponding input block under that key and changes no other byte, whatever the width (>= 32) of unsigned long, and also in place.",
  "all keys, all lengths, all buffer contents and positions (equal or disjoint), every width >= 32 of unsigned long",
  "2^128 keys times 2^128 blocks; the standard publishes two test vectors",
  ["test/WBSM4/WBMatrix/src/sm4.c:sm4_setkey_enc", "test/WBSM4/WBMatrix/src/sm4.c:sm4_crypt_ecb"])
p("C44",
  "Bundled SM4 decryption inverts encryption (ECB and CBC)",
  "With contexts from sm4_setkey_enc and sm4_setkey_dec for the same key, sm4_crypt_ecb and sm4_crypt_cbc (mode SM4_ENCRYPT, then SM4_DECRYPT with the original iv) give back every plaintext; CBC output is cipher block chaining and leaves the last ciphertext block in iv.",
  "all keys, ivs, lengths, buffers (equal or disjoint)",
  "infinitely many message lengths, 2^128 keys",
  ["test/WBSM4/WBMatrix/src/sm4.c:sm4_setkey_dec", "test/WBSM4/WBMatrix/src/sm4.c:sm4_crypt_cbc", "test/WBSM4/WBMatrix/src/sm4.c:sm4_crypt_ecb"])
p("C45",
  "White-box SM4 built from the library computes SM4",
  "For every key, tables produced by sm4_wb_gen_tables make sm4_wb_enc compute the SM4 encryption of every block under that key, for every seed, clock and prior memory contents: the random encodings are invisible in the result (little-endian machine).",
  "all keys, all blocks, all states of the random generator, all previous contents of the tables",
  "random encodings times keys times blocks; a test samples one encoding",
  ["test/WBSM4/WBMatrix/src/wbsm4_gen.c:sm4_wb_gen_tables", "test/WBSM4/WBMatrix/src/wbsm4_gen.c:sm4_wb_combine_tables", "test/WBSM4/WBMatrix/test/main.c:sm4_wb_enc"])
p("C46",
  "The SM4 context records the direction",
  "ctx->mode is SM4_ENCRYPT after sm4_setkey_enc and SM4_DECRYPT after sm4_setkey_dec. (Violated: sm4_setkey_dec stores SM4_ENCRYPT, and passing ctx->mode to sm4_crypt_cbc then does not decrypt.)",
  "all keys and contexts",
  "universal claim about a recorded field that no caller in the repository reads",
  ["test/WBSM4/WBMatrix/src/sm4.c:sm4_setkey_dec"])
p("C47",
  "Buffers accessed by sm4_crypt_ecb",
  "sm4_crypt_ecb with a positive length is free of out-of-bounds accesses exactly when 16*ceil(length/16) bytes are accessible at input and output; a buffer of exactly length bytes is overrun whenever length is not a multiple of 16.",
  "all lengths, buffer sizes and positions, contexts, contents",
  "tests cannot observe out-of-bounds accesses reliably and the claim quantifies over all sizes",
  ["test/WBSM4/WBMatrix/src/sm4.c:sm4_crypt_ecb"])
p("C48",
  "Field arithmetic and S-boxes of the bundled ciphers",
  "gMul multiplies bytes as polynomials over GF(2) modulo X^8+X^4+X^3+X+1. The AES table SBox and the SM4 table SboxTable are the algebraic S-boxes (inversion in the field with the affine maps of the standards). initialize_aes_sbox ends after exactly 255 iterations of its do-while loop, whatever the array contained, and computes the same table as aes.h.",
  "all bytes (pairs of bytes), all prior contents of the array",
  "termination of a do-while loop and an algebraic characterisation; tests compare against another copy of the same table",
  ["test/WBAES/WBMatrix/src/aes.c:gMul", "test/WBAES/WBMatrix/src/aes.c:initialize_aes_sbox", "test/WBAES/WBMatrix/include/aes.h:SBox", "test/WBSM4/WBMatrix/src/sm4.c:SboxTable"])
p("C49",
  "Bundled plain AES follows FIPS 197",
  "expandKey writes the eleven FIPS 197 round keys; subBytes, shiftRows, mixColumns and addRoundKey are the transformations of the standard; aes_128_encrypt (which permutes the round keys in place and adds them before SubBytes) computes AES-128 under the all-zero key and leaves the ciphertext in both input and output.",
  "all keys, all states, all blocks, all prior contents of the outputs",
  "2^128 keys and blocks",
  ["test/WBAES/WBMatrix/src/aes.c:expandKey", "test/WBAES/WBMatrix/src/aes.c:aes_128_encrypt", "test/WBAES/WBMatrix/src/aes.c:mixColumns", "test/WBAES/WBMatrix/src/aes.c:shiftRows"])
p("C50",
  "White-box AES built from the library computes AES-128",
  "For every key, expandKey followed by one computeTables makes aes_128_table_encrypt compute the AES-128 encryption of every block under that key, for every seed, clock and prior memory contents: the random 8x8 and 32x32 mixing bijections are invisible in the result. mixColumns_table is MixColumns.",
  "all keys, all blocks, all states of the random generator, all previous contents of the tables",
  "random encodings times keys times blocks; a test samples one encoding",
  ["test/WBAES/WBMatrix/src/genTables.c:computeTables", "test/WBAES/WBMatrix/src/genTables.c:aes_128_table_encrypt", "test/WBAES/WBMatrix/src/genTables.c:mixColumns_table"])
p("C51",
  "Generating the AES tables again from the same expanded key",
  "After expandKey, any number of calls of computeTables on the same array leaves tables that encrypt with AES-128 under the key. (Violated: computeTables permutes the round keys in the caller's array. The tables are right exactly when the number of calls is 1 modulo 4; main.c makes 100000 calls.)",
  "all keys, all numbers of calls, all states of the random generator",
  "claim about unboundedly many repetitions of a randomised call",
  ["test/WBAES/WBMatrix/src/genTables.c:computeTables", "test/WBAES/WBMatrix/test/main.c:main"])
p("C52",
  "computeTables has defined behaviour",
  "computeTables runs without undefined behaviour. (Violated under ISO C: it always shifts an int so that the result does not fit, gMul(2,64) << 24. With shifts that wrap, as gcc documents, no call has undefined behaviour.)",
  "all key arrays, table contents, states of the random generator",
  "undefined behaviour is not observable by tests that happen to run as expected",
  ["test/WBAES/WBMatrix/src/genTables.c:computeTables"])
p("C53",
  "The AES tables are not protected by the random encodings",
  "computeTables draws random 8x8 and 32x32 bijections, but they do not hide the key. The byte tables TBoxes depend on the key alone: any two runs produce the same ones, whatever the random generator does. The entries TBoxes[0][j][0] are SubBytes(ShiftRows(key)), from which the key follows. Even TBoxes[9], which the table encryption uses for its last round, determines the key. Between the table rounds of aes_128_table_encrypt the state is the plain state of the cipher.",
  "all keys, all states of the random generator, all previous contents of the tables, all blocks, all numbers of rounds",
  "a security claim about all random encodings; functional tests pass whether or not the encodings have any effect",
  ["test/WBAES/WBMatrix/src/genTables.c:computeTables", "test/WBAES/WBMatrix/src/genTables.c:aes_128_table_encrypt", "test/WBAES/WBMatrix/src/genTables.c:TBoxes"])

p("C54",
  "The older library bundled with the demos agrees with the current one except in known places",
  "For sizes 4 to 128, version 3.1.1 of the library (the copy next to the demos) and the current version return the same results from isequalM/isequalV, Mattrans, MatMulMat, affinemix, genMatpair and (sizes 4, 8, 16) genaffinepair, for the same inputs and state; genMatpair even leaves the same generator state behind. The versions differ in exactly these respects: randV32, randV64 and randV128 draw 16-bit pieces in the old version, so the vectors of genaffinepair for sizes 32, 64 and 128 differ while the matrices are the same and the pairs are still inverse; the old randV64 obeys SetRandSeed (the current one does not); and the old MattransM4 and MatMulMatM4 are correct for matrices with dirty high nibbles too (the current ones are not).",
  "all matrices, vectors, affine maps, all prior contents of the outputs, all stack garbage, all states of the random generator, both byte orders",
  "the two implementations of the transpose share no code and the domain is exponentially large; a test compares them on a few matrices",
  ["test/WBSM4/WBMatrix/src/WBMatrix/WBMatrix.c:MattransM64", "test/WBSM4/WBMatrix/src/WBMatrix/WBMatrix.c:genMatpairM32", "test/WBSM4/WBMatrix/src/WBMatrix/WBMatrix.c:randV64", "src/WBMatrix/WBMatrix.c:MattransM64", "src/WBMatrix/WBMatrix.c:randV64"])

p("C55",
  "The demos are correct with the library they are shipped with",
  "Compiled against the older library in their own directories, the white-box SM4 demo encrypts every block as SM4 does for every key and all random encodings, and the white-box AES demo computes AES-128. Tables from the two library versions encrypt to the same bytes; for AES the tables themselves are identical.",
  "all keys, all blocks, all states of the random generator and clocks, all prior contents of the global variables",
  "quantifies over all random encodings and all keys; the demos' own main functions try one key",
  ["test/WBSM4/WBMatrix/src/wbsm4_gen.c:sm4_wb_gen_tables", "test/WBAES/WBMatrix/src/genTables.c:computeTables", "test/WBSM4/WBMatrix/src/WBMatrix/WBMatrix.c:genaffinepairM32", "test/WBAES/WBMatrix/src/WBMatrix/WBMatrix.c:genMatpairM32"])

p("C56",
  "Reverse Gaussian elimination always produces an invertible matrix",
  "In test/RGEMethod_test.c, InvTMatM4 to InvTMatM256 store an invertible matrix for every seed counter, every clock and every previous content of the destination; invsM then stores its two-sided inverse. The only exception is a seed counter equal to the largest int, whose increment overflows.",
  "all seed counters, clocks, previous contents of the destination; sizes 4, 8, 16, 32, 64, 128, 256",
  "2^32 seed values; a test samples a few and cannot exclude a singular result",
  [f"test/RGEMethod_test.c:InvTMatM{n}" for n in (4, 8, 16, 32, 64, 128, 256)])
p("C57",
  "Reverse LU decomposition always produces an invertible matrix",
  "In test/RLUDMethod_test.c, lowM and upM store unit lower and unit upper triangular matrices, and InvTMat stores an invertible matrix, whose inverse invsM then finds, for every seed counter (apart from the three largest ints), every clock and every content of the uninitialised local arrays and the destination. (Violated for upM256 and InvTMatM256: in rows 192 to 255 upM256 writes column word 4 of a row that has words 0 to 3. The index is out of range exactly if one of 2016 draws is odd. Where the access happens to reach the next row the result is still unit upper triangular, but its last 64 rows are always those of the identity.)",
  "all seed counters, clocks, stack contents, previous contents of the destination; sizes 4, 8, 16, 32, 64, 128, 256",
  "out-of-bounds writes that land in the next row go unnoticed by tests, as do reads of uninitialised words",
  [f"test/RLUDMethod_test.c:{f}M{n}" for n in (4, 8, 16, 32, 64, 128, 256) for f in ('low', 'up', 'InvTMat')])
p("C58",
  "Rejection sampling returns the first invertible matrix; when it returns",
  "In test/WBGEMethod_test.c, InvTMat returns the first invertible matrix among those that consecutive randM calls store, and Matrixpair returns it together with its two-sided inverse. If the clock stands still during 2^32 consecutive seedings, whenever that may begin, InvTMat returns. For every size there is also a clock with which it never returns.",
  "all seed counters, clocks, previous contents of the destinations, all bounds on the number of iterations; sizes 4, 8, 16, 32, 64, 128, 256",
  "termination depends on the clock; no test can show that a loop never ends",
  [f"test/WBGEMethod_test.c:{f}M{n}" for n in (4, 8, 16, 32, 64, 128, 256) for f in ('InvTMat', 'Matrixpair')])
p("C59",
  "The basis matrix method: invertible results up to size 64, never an inverse pair for size 128",
  "In test/BasisMatrixMethod_test.c, whatever srand and rand of the C library do: InvTMat stores an invertible matrix (the product of the basis matrices drawn), Matrixpair a matrix and its inverse, and InvSMat the inverse of the product along a trail recorded by Trail. (Violated for size 128: the tables MatrixM128 and MatrixM128_inv are corrupt. MatrixpairM128 and InvSMatM128 always store a singular inverse, and InvTMatM128 stores a singular matrix unless all 4096 draws select entry 14.)",
  "all C library generators, seed counters, clocks, trails, previous contents of the destinations; sizes 8, 16, 32, 64, 128",
  "the timing program never checks its results; a claim over all sequences of 4096 random numbers",
  [f"test/BasisMatrixMethod_test.c:{f}M{n}" for n in (8, 16, 32, 64, 128) for f in ('InvTMat', 'Trail', 'InvSMat', 'Matrixpair')])
p("C60",
  "The accuracy test passes for every seed on little-endian machines and fails on big-endian ones",
  "The program test/Accuracy_test.c, linked with the library, prints PASS on every line and ends with ALL PASS! on a little-endian machine, whatever the seed, the clock, the state of the generator and the contents of the uninitialised variables. On a big-endian machine exactly the six lines on concatenation report ERROR and it ends with ERROR!. The exit status is 0 in both cases, and no undefined behaviour occurs.",
  "all seeds, clocks, generator states and contents of uninitialised variables; both byte orders",
  "a run samples 100000 random inputs per line for one seed on one machine; the claim covers all runs",
  ["test/Accuracy_test.c:main"])
p("C61",
  "Which matrices the random functions can return",
  "Size 4: by choice of the seed, randM4 returns every 4x4 matrix, and genMatpairM4 every invertible one (and nothing else). Sizes 8 to 256: over all seeds, clocks, generator states and stack contents, randM<n> and genMatpairM<n> return at most 2^32 different matrices (per byte order for n >= 64); for n >= 32 randM<n> returns exactly 2^32. As there are at least 2^(n(n-1)) invertible matrices, almost none of them is ever returned by genMatpairM<n>.",
  "all seed counters, clocks, generator states, previous contents of the outputs, stack contents; sizes 4, 8, 16, 32, 64, 128, 256",
  "a claim about the set of all results over all runs; sampling cannot show that a result never occurs",
  [f"src/WBMatrix/WBMatrix.c:{f}M{n}" for n in (4, 8, 16, 32, 64, 128, 256) for f in ('rand', 'genMatpair')] + ["src/WBMatrix/random.c:cus_random"])
p("C62",
  "From size 32 on, different seed values give different matrices",
  "Two calls of randM32 (or randM64, randM128, randM256), in any two states of the program, return the same matrix exactly if they seed the generator with the same value (seed counter xor clock). In particular two calls that read the same time, fewer than 2^32 seedings apart, never return the same matrix, whatever random functions are called in between.",
  "all pairs of states, all sequences of calls in between; sizes 32, 64, 128, 256",
  "2^64 pairs of seed values; a birthday test finds no collision whether or not there is one",
  [f"src/WBMatrix/WBMatrix.c:randM{n}" for n in (32, 64, 128, 256)] + ["src/WBMatrix/random.c:cus_random", "src/WBMatrix/random.c:permuteQPR"])
p("C63",
  "The random bits of the LowMC method: every call returns, full period, exact balance",
  "getrandbit of test/LowMCMethod_text.cpp is the self-shrinking generator of the Grain register: from any non-zero register it examines consecutive pairs of the register sequence and returns the second bit of the first pair whose first bit is 1; such a pair is among the next 80 (the bound is attained), so every call returns. The first call starts from all ones after dropping 160 bits. Every non-zero register sequence has least period 2^80 - 1 and contains every non-zero 80-bit pattern once per period. The bits returned have period 2^79, every 2^79 consecutive ones contain exactly 2^78 ones, and meanwhile the register takes each value whose bit 78 is set exactly once; it never becomes zero again.",
  "all register contents, all numbers of calls; sequences of length 2^80",
  "the period is 2^80 - 1; no test can run through it, and a shorter one or a dead state would go unnoticed",
  ["test/LowMCMethod_text.cpp:getrandbit"])
p("C64",
  "The matrices of the LowMC method: first invertible sum of random blocks, or no end",
  "In test/LowMCMethod_text.cpp, RandbitMat adds the next n*n random bits to what the matrix already holds. As InvTMat never initialises its local matrix, it goes through the sums of the stack contents with one, two, ... blocks of random bits, stores the first invertible sum (invsM of it is a two-sided inverse) and loops for ever if there is none. The result depends on the stack: for every invertible matrix and every state of the generator there are stack contents with which it is returned at the first attempt. InvTMatM4 accepts a sum only if moreover the high halves of the stack bytes cancel; if they form an invertible matrix it never returns, in whatever state the generator is.",
  "all stack contents, generator states, previous contents of the destination, all bounds on the number of attempts; sizes 4, 8, 16, 32, 64, 128, 256",
  "stack contents are outside the control of a test; no test can show that a loop never ends",
  [f"test/LowMCMethod_text.cpp:{f}M{n}" for n in (4, 8, 16, 32, 64, 128, 256) for f in ('RandbitMat', 'InvTMat')])
M4 = "test/github1_M4RI/src/matrixlib/matrix_gf2.c"
p("C65",
  "The matrix layer on top of M4RI computes what its names say",
  "matrix_gf2.c (three identical copies under test/): the columns made from numbers have the most significant bit first and are read back to the same numbers; ApplyMatToU8 to ApplyMatToU128 return the product of the matrix and the number, for 8 to 64 bits the same number as MatMulNumM8 to MatMulNumM64 of WBMatrix for the same matrix; AddMatToU32/64/128 and GenMatAddU8/16/32 the sum; GenMatGf2Mul, Add, Inv, Copy, Stack, Concat, Diag, GenIndMatrix and GenZeroVec the matrix named (Copy for matrices that have columns or no rows, see C105), provided that M4RI's own product, inverse and transpose are correct.",
  "all matrices of all sizes (of the size of the number), all numbers, all heaps",
  "the agreement of two independent libraries for all 2^(n*n) matrices cannot be enumerated",
  [f"{M4}:{f}" for f in ("InitVecFromBit", "InitVecFromBit_64", "InitVecFromBit_128", "getDigitalFromVec", "getDigital64FromVec", "getDigital128FromVec", "get32FromVec", "get64FromVec", "get128FromVec", "ApplyMatToU8", "ApplyMatToU16", "ApplyMatToU32", "ApplyMatToU64", "ApplyMatToU128", "AddMatToU32", "AddMatToU64", "AddMatToU128", "GenMatAddU8", "GenIndMatrix", "GenMatGf2Diag")])
p("C66",
  "The matrix layer on top of M4RI: the destination may be an operand, and no matrix is lost",
  "MatGf2Mul, Add, Stack, Concat, Inv and Transpose with a destination free the old destination, which may be an operand, and return a new matrix; nothing else changes. The functions that return numbers leave no matrix behind. (Violated: MatGf2Copy of a matrix with rows but no columns, see C105; MatGf2Copy(a, &a), and MatGf2Diag with an operand as destination, use a matrix after freeing it; AddMatToU32, AddMatToU64 and GenMatAddU8/16/32 lose one matrix per call. ApplyMatToU8 to U128 and AddMatToU128 lose none, however often they are called.)",
  "all matrices, all heaps, all destinations, all sequences of calls",
  "use after free and leaks do not change the results a test compares",
  [f"{M4}:{f}" for f in ("MatGf2Mul", "MatGf2Add", "MatGf2Stack", "MatGf2Concat", "MatGf2Inv", "MatGf2Transpose", "MatGf2Copy", "MatGf2Diag", "AddMatToU32", "AddMatToU64", "AddMatToU128", "GenMatAddU8", "GenMatAddU16", "GenMatAddU32", "ApplyMatToU8", "ApplyMatToU128")])
p("C67",
  "The layer on top of M4RI recognises invertible matrices and returns the first one drawn",
  "IsMatGf2Invertible returns 1 exactly for the invertible square matrices and 0 for all others (on the empty matrix it reads out of bounds), using M4RI's naive elimination on a copy, and leaves memory as it was. GenInvertibleMatGf2(n, n) returns the first invertible matrix drawn by mzd_randomize; if it returns, the matrix is invertible. It never returns if no draw is invertible, or if the numbers of rows and columns differ.",
  "all matrices of all sizes, all sequences of random bits, all numbers of rounds",
  "that an elimination decides invertibility for every matrix of every size, and that a loop never ends, is not testable",
  [f"{M4}:IsMatGf2Invertible", f"{M4}:GenInvertibleMatGf2", "test/github1_M4RI/src/m4ri/mzd.c:mzd_gauss_delayed"])
p("C68",
  "Entering matrix elements from arrays in the layer on top of M4RI",
  "MatGf2Set stores the parity of the value and nothing else; InitMatGf2ByValueArray enters an array given row by row; InitMatrixFromBitArray enters one number per row, most significant bit first. (Violated: an odd negative value is stored as 1 only in columns divisible by 64 and as 0 in the others; InitMatGf2ByValueArray multiplies the row by the number of rows instead of columns: it reads out of bounds whenever there are more rows than columns, and enters the wrong matrix when there are more columns. Square matrices with values that are not negative, and InitMatrixFromBitArray, are correct.)",
  "all sizes, all arrays, all values",
  "tests use square matrices with elements 0 and 1",
  [f"{M4}:MatGf2Set", f"{M4}:InitMatGf2ByValueArray", f"{M4}:InitMatrixFromBitArray"])
p("C69",
  "Comparing, exporting, importing and printing in the layer on top of M4RI",
  "MatGf2Cmp returns 0 exactly for equal matrices, otherwise 1 or -1, and changes sign when the matrices are exchanged, also for different sizes. ImportMatGf2FromStr applied to the bytes of ExportMatGf2ToStr, followed by anything, makes an equal matrix on machines of either byte order; the exported bytes are two 32-bit sizes and one digit per element. DumpMatGf2 and DumpMatGf2Line print the elements row by row.",
  "all matrices with fewer than 2^32 rows and columns, both byte orders",
  "a round trip for all matrices of all sizes",
  [f"{M4}:MatGf2Cmp", f"{M4}:ExportMatGf2ToStr", f"{M4}:ImportMatGf2FromStr", f"{M4}:DumpMatGf2", f"{M4}:DumpMatGf2Line", "test/github1_M4RI/src/m4ri/mzd.c:mzd_cmp", "test/github1_M4RI/src/m4ri/io.c:mzd_from_str"])
S4 = "test/WBSM4/M4RI/src/matrixlib"
p("C70",
  "The affine transforms on top of M4RI: application, inverse, memory, export",
  "test/WBSM4/M4RI/src/matrixlib/affine_transform.c: ApplyAffineToU8, U16 and U32 return the matrix times the number plus the vector, the same number as affineU8, affineU16 and affineU32 of WBMatrix for the same transform, and leave memory as it was. GenRandomAffineTransform returns an invertible transform and its inverse, which undo each other in both orders, in exactly four new matrices, unless too many successive random matrices are singular; GenIndAffineTransform returns identities. ApplyAffineTransform replaces the destination, which may be the argument (but if it is the vector of the transform, a freed matrix is used). AffineTransformFree frees both matrices and nothing else. ImportAffineFromStr of ExportAffineToStr makes an equal transform on machines of either byte order.",
  "all transforms, numbers, heaps, sequences of random bits, both byte orders",
  "agreement of two libraries and inverse pairs for all 2^1056 transforms of 32 bits; freed memory is not visible in results",
  [f"{S4}/affine_transform.c:{f}" for f in ("GenRandomAffineTransform", "GenIndAffineTransform", "ApplyAffineTransform", "ApplyAffineToU8", "ApplyAffineToU16", "ApplyAffineToU32", "AffineTransformFree", "ExportAffineToStr", "ImportAffineFromStr")])
p("C71",
  "The white-box SM4 demo built on M4RI computes SM4",
  "With the tables that sm4_wb_gen_tables of test/WBSM4/M4RI makes for a key, sm4_wb_enc encrypts every block as SM4 does under that key, whatever the random bits, the previous contents of the globals and of the table object, the heap and the byte order were, and as long as the matrices are not changed; the demo on WBMatrix gives the same bytes. Table generation returns unless too many successive random matrices of size 8 or 32 are singular. The program main ends with the SM4 encryption of 00 01 ... 0f under the zero key.",
  "all keys, blocks, sequences of random bits, heaps, byte orders, numbers of rounds",
  "2^256 pairs of key and block, for every one of the random encodings",
  [f"{S4}/wbsm4_gen.c:{f}" for f in ("sm4_wb_gen_secrect_sbox", "sm4_wb_gen_affine", "sm4_wb_combine_tables", "sm4_wb_gen_tables")] + ["test/WBSM4/M4RI/test/main.c:sm4_wb_enc", "test/WBSM4/M4RI/test/main.c:main"])
p("C72",
  "The white-box SM4 demo built on M4RI can be run again without losing memory",
  "sm4_wb_gen_tables leaves all matrices that exist as they are; sm4_wb_enc leaves the number of matrices unchanged; repeated generation of tables into the same table object loses no memory. (Violated in the last point: every call of sm4_wb_gen_tables leaves exactly 1344 more matrices than before, as many as the globals and the table object can point to. After n + 1 calls at least 1344 n matrices cannot be reached from any variable; main makes 100000 calls.)",
  "all keys, sequences of random bits, heaps, numbers of calls",
  "leaks do not change any result; exact counts hold for every execution",
  [f"{S4}/wbsm4_gen.c:sm4_wb_gen_tables", f"{S4}/wbsm4_gen.c:sm4_wb_gen_affine", f"{S4}/wbsm4_gen.c:sm4_wb_combine_tables", "test/WBSM4/M4RI/test/main.c:main"])
A4 = "test/WBAES/M4RI"
p("C73",
  "The white-box AES demo built on M4RI computes AES-128",
  "With the tables that computeTables of test/WBAES/M4RI makes from the expanded key, aes_128_table_encrypt encrypts every block as AES-128 does under the key, and mixColumns_table is MixColumns, whatever the random bits, the previous contents of the tables, the heap and the byte order were; the demo on WBMatrix gives the same bytes for the same key. computeTables returns unless too many successive random matrices of size 8 or 32 are singular. (Compilers that keep the low 32 bits of a shifted int; see C74.)",
  "all keys, blocks, sequences of random bits, heaps, byte orders",
  "2^256 pairs of key and block, for every one of the random mixing bijections",
  [f"{A4}/src/matrixlib/genTables.c:computeTables", f"{A4}/src/matrixlib/genTables.c:aes_128_table_encrypt", f"{A4}/src/matrixlib/genTables.c:mixColumns_table"])
p("C74",
  "The program of the AES demo built on M4RI ends with tables for its key",
  "main of test/WBAES/M4RI expands the zero key, calls computeTables TEST times on the same expanded key, and the tables then encrypt with AES-128 under the zero key. (Violated: each call permutes the first ten round keys, so the tables are right exactly if TEST is 1 modulo 4, and wrong for the 100000 of the program; what they compute is determined for every TEST. With the rules of ISO C the first call already has undefined behaviour for every input, a shift of an int that overflows.)",
  "all values of TEST, sequences of random bits, heaps, byte orders, previous contents of the tables",
  "the program does not look at the results; undefined behaviour need not show",
  [f"{A4}/test/main.c:main", f"{A4}/src/matrixlib/genTables.c:computeTables"])
p("C75",
  "computeTables of the AES demo built on M4RI releases the matrices it allocates",
  "computeTables leaves all matrices that existed before as they are, and after it returns there are as many matrices as before. (The second part is violated: every call leaves exactly 275456 more, although no variable of the program holds the address of a matrix; main, with n calls, leaves 275456 n.)",
  "all expanded keys, sequences of random bits, heaps, numbers of calls",
  "leaks do not change any result; exact counts hold for every execution",
  [f"{A4}/src/matrixlib/genTables.c:computeTables", f"{A4}/test/main.c:main"])
NR = "test/NTL/src/RandMat.cpp"
NU = "test/WBSM4/NTL/src/matrixlib/MatrixUtils.cpp"
p("C76",
  "The generators on top of NTL return matrices with their inverses",
  "RandMat::init(n) and genRandomInvMatrix return a matrix together with its inverse; init(n, 0) returns some matrix and keeps the old inverse; InvTMat returns an invertible matrix; initVec returns the next n random bits; genRandomAffineMatrix, genRandomAffineMatrix2 and genRandomAffineAugmentedMatrix return an invertible affine map as documented, with two affine maps that undo each other and with the augmented matrix and its inverse. No returned matrix has a row with exactly one 1. All this for every size, whatever was in the arguments before, or the function is still drawing random bits; nothing else can happen.",
  "all sizes, sequences of random bits, previous contents of the objects",
  "the results depend on the random bits; any size can be asked for",
  [f"{NR}:init", f"{NR}:InvTMat", f"{NR}:initVec", f"{NU}:genRandomInvMatrix", f"{NU}:genRandomAffineMatrix", f"{NU}:genRandomAffineMatrix2", f"{NU}:genRandomAffineAugmentedMatrix"])
p("C77",
  "Every invertible matrix can be generated by the generators on top of NTL",
  "For every invertible matrix there are random bits for which RandMat::init (genRandomInvMatrix, genRandomAffineMatrix) returns it. (Violated: rows with exactly one 1 are drawn again. What can be returned is exactly the set of invertible matrices none of whose rows has exactly one 1; the identity never is, and with sizes 1 and 2 the function never returns, whatever the random bits are. From size 3 on it can return.)",
  "all sizes, matrices, sequences of random bits",
  "that something is never returned cannot be seen by running the function",
  [f"{NR}:init", f"{NU}:random", f"{NU}:randomInvertible"])
p("C78",
  "The conversions between numbers, vectors and matrices on top of NTL agree",
  "initVecFromBit and initMatrixFromBit give the bits of the numbers, most significant first, get32FromVec, get8FromVec and getDigitalFromVec give the number back, applyAffineToU32/U8, applyMatToU32/U8 and addVecToU32/U8 compute the affine map, the linear map and the sum over GF(2), combineDiagMat gives the block diagonal matrix, the augmented matrix applied to the augmented vector gives the affine map, and vectors that are too short are read out of range.",
  "all numbers, vectors, matrices, sizes",
  "2^1056 affine maps of size 32, for each 2^32 arguments",
  [f"{NU}:{x}" for x in ("initVecFromBit", "initMatrixFromBit", "get32FromVec", "get8FromVec", "getDigitalFromVec", "applyAffineToU32", "applyAffineToU8", "applyMatToU32", "addVecToU32", "combineDiagMat", "getAugmentedVecFrom32")])
p("C79",
  "The output operator of RandMat prints the object to the given stream",
  "For every RandMat object, stream << m returns and writes the size, the matrix and, if the matrix is invertible, its inverse to the stream. (Violated: everything goes to cout, the given stream is never written. And for a new object whose matrix was made with init(n, 0) and happens to be invertible, the inverse has never been set and the operator reads elements that do not exist.)",
  "all sizes, matrices, streams",
  "a test that prints to cout sees the expected text; whether init(n, 0) gives an invertible matrix is random",
  [f"{NR}:operator<<", f"{NR}:init"])
S5 = "test/WBSM4/NTL"
p("C80",
  "The white-box SM4 demo built on NTL computes SM4",
  "With the tables that sm4_wb_gen_tables of test/WBSM4/NTL makes for a key, sm4_wb_enc encrypts every block as SM4 does under that key, whatever the random bits, the previous contents of the globals and of the table object and the byte order were; the demo on WBMatrix gives the same bytes. Table generation returns or is still drawing random bits; wherever the generator stands, there are bits for which it returns. The program main ends with the SM4 encryption of 00 01 ... 0f under the zero key.",
  "all keys, blocks, sequences of random bits, byte orders, numbers of rounds",
  "2^256 pairs of key and block, for every one of the random encodings",
  [f"{S5}/src/matrixlib/wbsm4_gen.cpp:{f}" for f in ("sm4_wb_gen_secrect_sbox", "sm4_wb_gen_affine", "sm4_wb_combine_tables", "sm4_wb_gen_tables")] + [f"{S5}/test/main.cpp:sm4_wb_enc", f"{S5}/test/main.cpp:main"])
A5 = "test/WBAES/NTL"
p("C81",
  "The white-box AES demo built on NTL computes AES-128",
  "With the tables that computeTables of test/WBAES/NTL makes from the expanded key, aes_128_table_encrypt encrypts every block as AES-128 does under the key, and mixColumns_table is MixColumns, whatever the random bits, the previous contents of the tables and the byte order were; the demo on WBMatrix gives the same bytes for the same key. computeTables returns or is still drawing random bits; wherever the generator stands, there are bits for which it returns.",
  "all keys, blocks, sequences of random bits, byte orders",
  "2^256 pairs of key and block, for every one of the random mixing bijections",
  [f"{A5}/src/genTables.cpp:computeTables", f"{A5}/src/genTables.cpp:aes_128_table_encrypt", f"{A5}/src/genTables.cpp:mixColumns_table", f"{A5}/src/genTables.cpp:int2vec", f"{A5}/src/genTables.cpp:vec2int"])
p("C82",
  "The program of the AES demo built on NTL ends with tables for its key",
  "main of test/WBAES/NTL expands the zero key, calls computeTables TEST times on the same expanded key, and the tables then encrypt with AES-128 under the zero key. (Violated: each call permutes the first ten round keys, so the tables are right exactly if TEST is 1 modulo 4, and wrong for the 100000 of the program; what they compute is determined for every TEST.)",
  "all values of TEST, sequences of random bits, byte orders, previous contents of the tables",
  "the program does not look at the results",
  [f"{A5}/test/main.cpp:main", f"{A5}/src/genTables.cpp:computeTables"])
G6 = "test/github6/Inverse_of_matrix.c"
p("C83",
  "The cofactor program of the comparison computes determinants and inverses",
  "For every order n >= 1, determinant of test/github6 returns the determinant of the integer matrix, and cofactor stores its inverse (floating point numbers taken as exact). (Violated for order 1, where cofactor stores 0. For orders from 2 on, whatever cofactor returns with is the inverse; determinant and cofactor return if n! B^n < 2^31 for a bound B >= 1 of the entries, and otherwise can only end with a signed overflow; a singular matrix leads to a division by zero. A matrix is invertible over GF(2), where the library works, exactly if the determinant is odd, and then det * result, modulo 2, is the inverse over GF(2); there are 0/1 matrices that this program inverts and the library does not. The program itself inverts its matrix in every round.)",
  "all orders, integer matrices, contents of new memory",
  "infinitely many matrices; the program looks at one 8 by 8 matrix and not at the result",
  [f"{G6}:determinant", f"{G6}:cofactor", f"{G6}:transpose", f"{G6}:main"])
p("C84",
  "The cofactor program of the comparison frees its memory",
  "Every call of cofactor of test/github6 frees the blocks that it allocates. (Violated: determinant of order n leaves exactly n! blocks behind, cofactor exactly (n+1)! for n >= 2 and one for n = 1; the program leaves 362880 blocks per round, 36288000 in all.)",
  "all orders, integer matrices, numbers of rounds",
  "leaks do not change any result; exact counts hold for every execution",
  [f"{G6}:determinant", f"{G6}:cofactor", f"{G6}:main"])
G2 = "test/github2/src/Inverse-matrix.c"
p("C85",
  "The adjugate program of the comparison computes determinants and inverses",
  "For every order from 1 to 100, det of test/github2 returns the determinant (floating point numbers taken as exact), and inverse, called with it, stores the inverse if it is not zero. (Violated for order 1, where 1 is stored whatever the element is. From order 2 on it holds, the rest of the array is left alone, and a singular matrix is reported without storing anything. For orders above 100 det never returns properly.)",
  "all orders, rational matrices, contents of uninitialised arrays",
  "infinitely many matrices; the test program looks at one 8 by 8 matrix and not at the result",
  [f"{G2}:det", f"{G2}:minor", f"{G2}:inverse", f"{G2}:cofactor", f"{G2}:transpose", "test/github2/test/InvMatrix_test.c:InvSMatM8"])
G3 = "test/github3/src/matriz_inversa.c"
p("C86",
  "The linear algebra program of the comparison computes adjugates and inverses",
  "For every square matrix with at least one row, determmatrix of test/github3 returns the determinant (floating point numbers taken as exact), adjmmatrix stores the adjugate, and invermmatrix computes the inverse or reports that there is none; mulmat returns the matrix product. (Violated for order 1: adjmmatrix stores 0 instead of 1, so that every inverse is 0. From order 2 on it holds. For order 0 adjmmatrix frees an uninitialised pointer.)",
  "all orders, rational matrices, contents of new memory",
  "infinitely many matrices; invermmatrix frees the result before anybody can see it",
  [f"{G3}:determmatrix", f"{G3}:adjmmatrix", f"{G3}:invermmatrix", f"{G3}:mulmat", f"{G3}:cofacmmatrix"])
p("C87",
  "The linear algebra program of the comparison frees its memory",
  "Every call of invermmatrix of test/github3 frees the memory that it allocates. (Violated: adjmmatrix of order t frees one of the t^2 matrices that it allocates; invermmatrix leaves (n^2-1)(n+2) blocks behind whenever the matrix of order n >= 2 has an inverse, and none otherwise; the test program leaves 630 blocks per round, 63000010 in all.)",
  "all orders, rational matrices, numbers of rounds",
  "leaks do not change any result; exact counts hold for every execution",
  [f"{G3}:adjmmatrix", f"{G3}:invermmatrix", "test/github3/test/InvMatrix_test.c:main"])
G4 = "test/github4/src/matrixinverse.c"
p("C88",
  "The Gauss-Jordan program of the comparison computes inverses",
  "For every matrix with a determinant that is not zero, the functions of test/github4 compute the inverse (floating point numbers taken as exact). (Violated: the pivot is the largest value, not the largest absolute value, so a column of zeros and negative values leads to a division by zero; this happens for a 3 by 3 matrix of bits with determinant 1. Whenever the program gets through, the result is the inverse; nothing else than a division by zero can go wrong, and a singular matrix always leads to one. All rounds of the test program but the first invert the identity matrix.)",
  "all orders, rational matrices, contents of new memory, numbers of rounds",
  "infinitely many matrices; whether a zero pivot turns up depends on the matrix; the test program does not look at the results",
  [f"{G4}:findPivo", f"{G4}:swapLine", f"{G4}:calcInverse", f"{G4}:augmentingmatrix", "test/github4/test/InvMatrix_test.c:InvSMatM8", "test/github4/test/InvMatrix_test.c:main"])
G7 = "test/github7/inverseMatrix.c"
p("C89",
  "The program of the comparison that searches pivots in both directions computes inverses",
  "For every matrix with a determinant that is not zero, reverseMatrix of test/github7 returns the inverse (floating point numbers taken as exact). (Violated: where columns should be exchanged, rows are, so that the pivot can be zero, even for a permutation matrix; the test program divides by zero in the first step of its first call. Whenever the function returns, the result is the inverse; otherwise it ends with a division by zero or, for elements beyond 2147483647, with an undefined conversion in the call of abs, and for a singular matrix always. It turns the matrix of the caller into the identity, so a loop of two or more calls ends with the identity as its result.)",
  "all orders, rational matrices, contents of new memory, numbers of calls",
  "infinitely many matrices; whether a zero pivot turns up depends on the matrix; the test program does not look at the results",
  [f"{G7}:reverseMatrix", f"{G7}:qMatrixMainElementLQ", f"{G7}:qMatrixSwapRows", f"{G7}:subtractRowQMatrix", "test/github7/main.c:main"])
G5 = "test/github5/src/invertiblematrix.c"
p("C90",
  "The generator of the comparison returns invertible matrices",
  "For every size and all random numbers, getInvertibleMatrix of test/github5, started with the identity, returns an invertible matrix. (Violated: there are random numbers for which a 3 by 3 result is singular, and others for which it is singular over GF(2) only; for size 1 there is a remainder modulo zero. For size 2 the determinant is always 1. From size 2 on the generator always returns, without signed overflow, with elements of at most 65535 in absolute value; the last column is always the last unit column; the result depends on uninitialised memory.)",
  "all sizes, sequences of random numbers, contents of new memory",
  "singular results are so rare that random tests do not find them; bounds and the last column hold for every execution",
  [f"{G5}:getInvertibleMatrix", f"{G5}:getIdentityMatrix", "test/github5/test/InvMatrix_test.c:InvTMatM"])
SP = "test/randomness"
p("C91",
  "The randomness tests look at the bits of the file that they are given",
  "sp800_22_tests.py reads every byte of the file that it is given as eight bits, least significant bit first unless --be is given, as its help text says, and leaves the file as it is. (Violated: the flag works the other way round, most significant bit first unless --be is given. The file for the results is opened before the input is read, under the name of the input with .bin replaced by .txt, so an input without .bin in its name is emptied and the tests get no bits at all. If there is a .bin in the name, or if the name is absolute, then the input stays as it is and all its bits are used.)",
  "all files, file names, working directories",
  "the order of the bits changes no format and raises no error; whether a name is dangerous depends on the name and the directory",
  [f"{SP}/sp800_22_tests.py:read_bits_from_file", f"{SP}/sp800_22_tests.py"])
p("C92",
  "The matrix rank test computes ranks",
  "For every list of rows of bits, gf2matrix.rank returns the rank over GF(2) of the matrix; binary_matrix_rank_test counts the blocks of 1024 bits by the ranks of their matrices, and compares with the exact probabilities of the ranks. (Violated for matrices that are not square: with more rows than columns there is always an IndexError, with more columns than rows the result is never too small, but can be too large. The function computeRank, which no test calls, is wrong for a square matrix as well. For square matrices rank is right, and so is the test, which uses 32 by 32 matrices.)",
  "all matrices of bits of all sizes; all sequences of bits",
  "2^1024 matrices for one block; wrong ranks turn up for special positions of the pivots only",
  [f"{SP}/gf2matrix.py:rank", f"{SP}/gf2matrix.py:row_echelon", f"{SP}/gf2matrix.py:computeRank", f"{SP}/gf2matrix.py:matrix_from_bits", f"{SP}/sp800_22_binary_matrix_rank_test.py:binary_matrix_rank_test"])
p("C93",
  "The linear complexity test computes linear complexities",
  "For every sequence of bits that is not empty, berelekamp_massey returns the length L of a shortest linear feedback shift register that produces it, and a list of 1 and the first L-1 feedback coefficients of such a register (the last coefficient is missing, so two sequences with different registers can have the same result). linear_complexity_test counts the blocks of 512 bits by their linear complexities.",
  "all sequences of bits of all lengths",
  "minimality is a statement about all shorter registers; 2^512 possible blocks",
  [f"{SP}/sp800_22_linear_complexity_test.py:berelekamp_massey", f"{SP}/sp800_22_linear_complexity_test.py:linear_complexity_test"])
p("C94",
  "The P values of the randomness tests are values of the incomplete Gamma function",
  "For every a > 0 and x >= 0, gammaincc(a, x) is the regularised upper incomplete Gamma function, the probability that a variable with this Gamma distribution exceeds x (floating point numbers taken as exact). (Violated for x = 0, where the value is 1: the result is 0 or an exception, and for whole a up to 50 always a division by zero. For whole a from 1 to 50, as in five of the tests, and x > 0 the continued fraction, although cut off after 100 steps, is exact and the result lies strictly between 0 and 1.)",
  "all real numbers x and a as described",
  "uncountably many arguments; exactness in real numbers cannot be observed with floating point numbers",
  [f"{SP}/gamma_functions.py:upper_incomplete_gamma", f"{SP}/gamma_functions.py:gammaincc"])
p("C95",
  "The tests for frequencies and runs count what they should count",
  "For every sequence of bits, the P value of monobit_test, frequency_within_block_test, runs_test and longest_run_ones_in_a_block_test is computed from the number of ones, the numbers of ones in the blocks, the number of runs, and the numbers of blocks by the length of their longest run of ones, with the formulas and classes of SP 800-22. (All of this holds, with these limits: the last of the tests only ever looks at the first 128, 6272 or 750000 bits; no bits, and up to 16 equal bits for runs_test, end with a division by zero; bits with exactly as many ones as zeros in every block never pass frequency_within_block_test, because of C94.)",
  "all sequences of bits of all lengths",
  "the limits depend on rare sequences; correct counts for all sequences are not a matter of examples",
  [f"{SP}/sp800_22_monobit_test.py:monobit_test", f"{SP}/sp800_22_frequency_within_block_test.py:frequency_within_block_test", f"{SP}/sp800_22_runs_test.py:runs_test", f"{SP}/sp800_22_longest_run_ones_in_a_block_test.py:longest_run_ones_in_a_block_test"])

p("C96",
  "The serial test and the approximate entropy test compute the probabilities of SP 800-22",
  "For every sequence of bits, serial_test and approximate_entropy_test count the words of m bits on the circle, and their P values are the exact probabilities for the statistics computed from these numbers, which are never negative. (The counts and statistics are right and never negative, and the P values exact if the statistics are not 0. False otherwise: if the words are spread perfectly evenly, for example in a de Bruijn sequence repeated four times, both tests end with a division by zero. Fewer than 64 bits fail the serial test; no bits are an exception.)",
  "all sequences of bits of all lengths; words of 3 to 7 bits for the serial test",
  "that the statistics cannot be negative is an identity of sums of squares and the concavity of the entropy; the failing sequences are too rare to be met by tests",
  [f"{SP}/sp800_22_serial_test.py:serial_test", f"{SP}/sp800_22_serial_test.py:psi_sq_mv1", f"{SP}/sp800_22_serial_test.py:countpattern", f"{SP}/sp800_22_approximate_entropy_test.py:approximate_entropy_test"])
p("C97",
  "The template tests count the occurrences of their template and judge them as SP 800-22 says",
  "For every template and every sequence of bits, non_overlapping_template_matching_test and overlapping_template_matching_test count the occurrences of the template in each block, and the P value belongs to the chi-square statistic of SP 800-22. (The templates are exactly the words of two to eight bits that cannot overlap themselves, so that the scan finds all occurrences, and the class probabilities of the overlapping test are right and positive. False otherwise: an occurrence at the end of a block is never counted, and the non-overlapping test divides its statistic by the variance once too often. As a consequence it accepts every sequence, of whatever length, in which the drawn template of at least five bits does not occur at all, for example zeros only.)",
  "all sequences of bits of all lengths, all templates, all random choices",
  "the template is drawn at random and the P value is only compared with 0.01, so that no test of a random sequence shows that the statistic is too small",
  [f"{SP}/sp800_22_non_overlapping_template_matching_test.py:non_overlapping_template_matching_test", f"{SP}/sp800_22_overlapping_template_matching_test.py:overlapping_template_matching_test", f"{SP}/sp800_22_overlapping_template_matching_test.py:Pr"])
p("C98",
  "The tests of the random walk compute what SP 800-22 prescribes for every walk",
  "For every sequence of bits, cumulative_sums_test uses the largest distances of the walk from its start, forward and backward, and the P value formula of SP 800-22; exchanging zeros and ones does not change its result, and reading the bits backward exchanges its two P values. random_excursion_test splits the walk into its excursions (one more than visits of 0) and computes its eight P values from the numbers of excursions with 0, 1, …, 4 and at least 5 visits of each state; random_excursion_variant_test computes its 18 P values from the numbers of visits, although it indexes a list with negative numbers. (All of this holds; no bits are a division by zero for cumulative_sums_test.)",
  "all sequences of bits of all lengths",
  "the loops over the walk depend on where it crosses 0; symmetry concerns all sequences",
  [f"{SP}/sp800_22_cumulative_sums_test.py:cumulative_sums_test", f"{SP}/sp800_22_cumulative_sums_test.py:p_value", f"{SP}/sp800_22_random_excursion_test.py:random_excursion_test", f"{SP}/sp800_22_random_excursion_variant_test.py:random_excursion_variant_test"])
p("C99",
  "Maurer's test computes the distances of equal blocks and never fails with default parameters",
  "For every sequence of bits, every length of blocks from 1 to 16 and every number of blocks for the start that leaves at least one block, maurers_universal_test computes its P value from the mean of the logarithms of the distances of each block to the previous equal one, with the formula of SP 800-22. With default parameters and at least 387840 bits, the length is the largest one up to 16 with 1010 * 2^L blocks in the bits, at least 1000 * 2^L blocks are left, and there is never an exception. (All of this holds; longer blocks are an index error, and no block left is a division by zero.)",
  "all sequences of bits of all lengths, all parameters",
  "the table of last positions is right only as an invariant over up to hundreds of millions of blocks; default parameters need 387840 to more than 10^9 bits",
  [f"{SP}/sp800_22_maurers_universal_test.py:maurers_universal_test", f"{SP}/sp800_22_maurers_universal_test.py:pattern2int"])

M4="test/github1_M4RI"
p("C100",
  "M4RI's product is the product, whatever k, the addresses and the uninitialised memory are",
  "For all matrices over GF(2) that are not empty and all sizes, mzd_mul_m4rm(NULL, A, B, k) returns the product of A and B with zeros in the unused bits of the last word, for every k, every alignment of the result and every content of the uninitialised memory; two different choices give the same words. Factors whose sizes do not match make the program abort, and so do factors without common dimension. m4ri_parity64 returns the 64 parities, the code book is a Gray code, and the tables contain every sum of their rows. (If B has less than 54 columns, it is transposed and must lie in one block of memory.)",
  "all sizes (no bound on the rows and columns except for the transposed factor, which lies in one block of 2^27 words), all matrices, all k, all contents of uninitialised memory",
  "three different algorithms are chosen by the sizes, with blocks of 64 columns, of 8k columns and of 512 rows, and tables of 2^k sums; tests sample a few sizes",
  [f"{M4}/src/m4ri/brilliantrussian.c:mzd_mul_m4rm", f"{M4}/src/m4ri/brilliantrussian.c:_mzd_mul_m4rm", f"{M4}/src/m4ri/brilliantrussian.c:mzd_make_table", f"{M4}/src/m4ri/mzd.c:mzd_mul_naive", f"{M4}/src/m4ri/graycode.c:m4ri_build_code", f"{M4}/include/m4ri/parity.h:m4ri_parity64"])
p("C101",
  "M4RI's transposition is right for every size that is not empty, and aborts for empty matrices",
  "For every matrix over GF(2), mzd_transpose(NULL, A) returns the transpose with zeros in the unused bits, whatever the uninitialised memory contains; transposing twice gives the same matrix back. (This holds for all matrices that are not empty and lie in one block of memory; a matrix with rows but no columns, or columns but no rows, makes the program abort.)",
  "all matrices of all sizes for which the matrix and its transpose lie in one block of memory of 2^27 words",
  "seven different routines for blocks of 8, 16, 32 and 64 rows and columns exchange bits with masks, and the blocks are processed in pairs, one of them delayed; the combinations depend on both sizes modulo 64 and their parity",
  [f"{M4}/src/m4ri/mzd.c:mzd_transpose", f"{M4}/src/m4ri/mzd.c:_mzd_transpose", f"{M4}/src/m4ri/mzd.c:_mzd_copy_transpose_64x64", f"{M4}/src/m4ri/mzd.c:_mzd_transpose_Nxjx64"])
p("C102",
  "M4RI's echelonisation returns the reduced row echelon form and the rank for every matrix and every table size",
  "For every matrix over GF(2) of every size, mzd_echelonize_m4ri(A, 1, k) ends, replaces A by the reduced row echelon form, which is obtained by an invertible matrix from the left and does not depend on k, and returns the rank of A. (This holds for every k from 1 to 10, and for k = 0, where the program chooses k, except for matrices of at most three rows and at least 87382 columns: there it chooses a table size of 0 and never ends.)",
  "all matrices of all sizes (fewer than 2^31 rows for k = 0), all k from 0 to 10",
  "the matrix is processed in blocks of up to 6k columns with up to six tables of sums of rows that were only reduced within the block, and a failed search for a pivot switches to another algorithm within the loop; tests sample a few sizes, and the endless loop needs a very wide matrix",
  [f"{M4}/src/m4ri/brilliantrussian.c:_mzd_echelonize_m4ri", f"{M4}/src/m4ri/brilliantrussian.c:_mzd_gauss_submatrix_full", f"{M4}/src/m4ri/brilliantrussian.c:mzd_process_rows", f"{M4}/src/m4ri/mzd.c:mzd_find_pivot", f"{M4}/src/m4ri/graycode.c:m4ri_opt_k"])
p("C103",
  "M4RI's inverse is the inverse of every invertible matrix, and a matrix without inverse is reported",
  "For every invertible matrix over GF(2), mzd_inv_m4ri(NULL, A, 0) returns the inverse, with zeros in the unused bits; a matrix that is not square makes the program abort; for a matrix without inverse no inverse is returned. (The last part is false: for every matrix without inverse an invertible matrix is returned that is not an inverse, without any sign of failure. For every square matrix, the result times the matrix is its reduced row echelon form.)",
  "all square matrices with 1 to 2^31 - 1 rows",
  "the inverse comes from the echelonisation of a matrix with 64-bit padding between the two halves; the sizes that are no multiples of 64 and the singular matrices are all treated by the same code",
  [f"{M4}/src/m4ri/brilliantrussian.c:mzd_inv_m4ri", f"{M4}/src/m4ri/brilliantrussian.c:_mzd_echelonize_m4ri"])
p("C104",
  "M4RI's own algorithms are what the programs on top of M4RI need",
  "The properties C65 to C75 of the matrix layer, of the affine transforms and of the white-box ciphers that use M4RI are stated for any library whose product, inverse and transpose are right for matrices that are not empty. The algorithms of M4RI (mzd_mul_m4rm, mzd_inv_m4ri, mzd_transpose) on words of 64 bits are such a library, whatever uninitialised memory contains and whatever k is chosen. (Matrices of more than 2^31 rows, and those that have to be transposed but do not lie in one block of memory of 2^27 words, are not covered by the model of these algorithms.)",
  "all matrices, all contents of uninitialised memory, all table sizes",
  "joins statements about two levels of the program, bits and words, for all sizes",
  [f"{M4}/src/matrixlib/matrix_gf2.c:GenMatGf2Mul", f"{M4}/src/matrixlib/matrix_gf2.c:GenMatGf2Inv", f"{M4}/src/m4ri/brilliantrussian.c:mzd_mul_m4rm", f"{M4}/src/m4ri/brilliantrussian.c:mzd_inv_m4ri", f"{M4}/src/m4ri/mzd.c:mzd_transpose"])
p("C105",
  "M4RI's access to bits, sums, concatenations, copies, random matrices and comparisons are right on words",
  "mzd_init gives the zero matrix; mzd_read_bit and mzd_write_bit access the entry named and change no other; mzd_add, mzd_concat and mzd_stack return the sum, the matrices beside each other and the matrices on top of each other, with zeros in the unused bits, and abort if the sizes do not fit; mzd_copy and mzd_from_str return the matrix given; mzd_randomize uses one random word for each word of the matrix and keeps the unused bits; mzd_cmp returns 0 exactly for equal matrices, and otherwise the sign of a total order, first by size, then by rows. (For matrices that have rows but no columns mzd_copy, mzd_cmp and mzd_randomize access memory outside of the rows.)",
  "all matrices of all sizes, all contents of unused bits, all strings, all random words",
  "sizes that are no multiples of 64 use masks and shifts whose cases depend on the size; a test covers few sizes",
  [f"{M4}/src/m4ri/mzd.c:{f}" for f in ("mzd_init", "mzd_add", "_mzd_add", "mzd_concat", "mzd_stack", "mzd_copy", "mzd_from_str", "mzd_randomize", "mzd_cmp")] + [f"{M4}/include/m4ri/mzd.h:mzd_read_bit", f"{M4}/include/m4ri/mzd.h:mzd_write_bit"])
p("C106",
  "M4RI's elimination row by row returns the rank and an echelon form, the naive inverse is right, every submatrix can be copied, and a matrix without inverse is reported",
  "For every matrix, mzd_echelonize_naive(A, full) returns the rank and replaces the matrix by a row echelon form, for full = 1 by the reduced one, which has the same words as the one of mzd_echelonize_m4ri; the last bit of the last row of the form of a square matrix is 1 exactly if the matrix is invertible. mzd_submatrix returns the part named. mzd_invert_naive(NULL, A, I) returns the inverse of an invertible matrix and a null pointer for a matrix without inverse. (The last two parts are false. mzd_submatrix uses the word after the last one of a row if the number of the first column is no multiple of 64 and the number of columns is a multiple of 64; in all other cases it is right. mzd_invert_naive never returns a null pointer for a matrix without inverse: it returns an invertible matrix that is not an inverse.)",
  "all matrices of all sizes, all parts",
  "the errors depend on the position in the words and on singular matrices; the rank for all matrices cannot be enumerated",
  [f"{M4}/src/m4ri/mzd.c:{f}" for f in ("mzd_gauss_delayed", "mzd_echelonize_naive", "mzd_invert_naive", "mzd_submatrix")])
p("C107",
  "M4RI's random words and random matrices are uniformly distributed if random() is",
  "Each 64-bit word is the result of m4ri_random_word for the same number of results of random(), which has only 31 bits, namely for 2^29 of the 2^93. Each matrix of a given size is the result of mzd_randomize for the same number of results of random(). The number of results for which a square matrix is invertible is exactly the one that follows from the order of the general linear group, and for every size it is more than a quarter of all results, so a program that draws until the matrix is invertible needs fewer than four draws on average.",
  "all words, all matrices of all sizes with at least one column",
  "a count over 2^93 results for each word of a matrix; a statistical test cannot tell a small bias",
  [f"{M4}/src/m4ri/misc.c:m4ri_random_word", f"{M4}/src/m4ri/mzd.c:mzd_randomize"])

p("C108",
  "M4RI's product after Strassen is the product, whatever the cutoff",
  "mzd_mul(NULL, A, B, cutoff) returns the product of A and B with zero unused bits, mzd_mul(NULL, A, A, cutoff) the square, mzd_addmul(C, A, B, cutoff) adds the product to C and changes no bit outside of C, and all cutoffs give the same words as the product without Strassen. With the default cutoff there is no exception. With a cutoff below 128 the program aborts for products with at least 86 rows, a common dimension of at least 86 and 86 to 127 columns unless the number of rows is a multiple of 128; with such a cutoff it accesses memory outside of the matrices for a common dimension of 86 to 127 and at least 128 rows and columns; with a cutoff of 2^29 or more, such as INT_MAX, the comparison with the cutoff overflows.",
  "all sizes with up to 2^29 - 1 rows and columns and a common dimension of up to 2^24, all matrices, all cutoffs, all contents of uninitialised memory",
  "recursion over blocks with rests in three dimensions; the failures depend on the sizes and the cutoff together and do not show with the default cutoff",
  [f"{M4}/src/m4ri/strassen.c:mzd_mul", f"{M4}/src/m4ri/strassen.c:mzd_addmul", f"{M4}/src/m4ri/strassen.c:_mzd_mul_even", f"{M4}/src/m4ri/strassen.c:_mzd_sqr_even", f"{M4}/src/m4ri/strassen.c:_mzd_addmul_even", f"{M4}/src/m4ri/strassen.c:_mzd_addsqr_even"])

p("C109",
  "M4RI's permutations of rows and columns multiply by the matrix of the permutation, and the two directions undo each other",
  "mzd_apply_p_left and mzd_apply_p_left_trans multiply a matrix from the left by the matrix of a permutation in LAPACK's format (a list of exchanges) and by its transpose; mzd_apply_p_right and mzd_apply_p_right_trans do so from the right, for every size of the cache that determines the blocks, with the same result as the versions that exchange columns one by one; the transposed function undoes the other one; unused bits do not change. The capped versions change only the rows from start_row on and undo each other, and the triangular version only changes entries above the diagonal. mzp_init and mzp_set_ui give the identity and mzp_copy copies. (False for the columns: a permutation that is shorter than the rows and that moves a column behind its end loses that column; a matrix with rows but without columns leads to a division by zero; the capped version that is not transposed leaves out the last start_col exchanges instead of the first, so the two do not undo each other; an element that is not the index of a column and a copy to a shorter permutation access memory outside of the arrays.)",
  "all matrices of all sizes in one block of memory, all permutations, all sizes of the cache, all contents of unused bits",
  "the columns are collected word by word with masks that depend on the permutation and rows are processed in blocks that depend on the cache of the machine; a test covers one machine and few permutations",
  [f"{M4}/src/m4ri/mzp.c:{f}" for f in ("mzd_apply_p_left", "mzd_apply_p_left_trans", "_mzd_apply_p_right_even", "mzd_write_col_to_rows_blockd", "mzd_apply_p_right", "mzd_apply_p_right_trans", "mzd_apply_p_right_even_capped", "mzd_apply_p_right_trans_even_capped", "_mzd_apply_p_right", "_mzd_apply_p_right_trans", "mzd_apply_p_right_trans_tri", "mzp_init", "mzp_set_ui", "mzp_copy")] + [f"{M4}/include/m4ri/mzd.h:mzd_col_swap_in_rows"])

p("C110",
  "M4RI's cache of matrix headers never gives out a header that is in use, never fails and gives back all its memory",
  "However a program creates and frees matrices, mzd_t_malloc returns a header that is not in use and lies in allocated memory, mzd_t_free of a header in use succeeds, there are at most 16 blocks of 64 headers, each block but the first contains a header in use, a header comes from the system only if at least 1024 are in use, and when no header is in use all memory has been given back.",
  "all sequences of calls that free only headers in use",
  "the list of blocks changes with every order of calls; a test covers a few orders and rarely 1024 matrices at once",
  [f"{M4}/src/m4ri/mzd.c:{f}" for f in ("log2_floor", "mzd_t_malloc", "mzd_t_free")])
p("C111",
  "M4RI's cache of memory returns blocks of the size asked for that are not in use, frees no block twice and loses none",
  "However a program calls m4ri_mmc_malloc, m4ri_mmc_free and m4ri_mmc_cleanup, each block returned is allocated, has the size asked for and is not in use; no block is given back to the system twice; at most 16 blocks that are not in use are kept, each smaller than the threshold; after m4ri_mmc_cleanup exactly the blocks in use are allocated; a block just freed serves the next request of its size. (False if the program asks for 0 bytes: after m4ri_mmc_cleanup such a request returns a block that has been given back, and a block of 0 bytes that is freed is lost.)",
  "all sequences of calls that free only blocks in use with the size asked for, all sizes, all thresholds",
  "sequences of calls of any length; the failures need a certain order of calls",
  [f"{M4}/src/m4ri/mmc.c:{f}" for f in ("m4ri_mmc_malloc", "m4ri_mmc_free", "m4ri_mmc_cleanup")])

p("C112",
  "The rows of M4RI's matrices and windows lie where the functions look for them, also in matrices of several blocks of memory",
  "For every matrix and every window, window of a window and so on: all words of all rows are inside of their block of memory and no two rows share a word; mzd_row, mzd_first_row and mzd_first_row_next_block return the addresses that the header stores, mzd_rows_in_block and mzd_remaining_rows_in_block return the numbers of rows in a block and from a row on, and mzd_col_swap and mzd_col_swap_in_rows visit each row that they are to change once. Every window inside of a matrix can be made. (False for windows that start in the middle of a block: mzd_remaining_rows_in_block is too large by the number of rows of the first block before the window, and mzd_col_swap_in_rows then leaves the block of memory if its first row is not in the first block of the window and its last row is in another block. An empty window behind the last row fails an assertion if the rows fill their only block; mzd_row overflows behind 2^31 words.)",
  "all matrices with up to 2^31 - 2^27 - 1 rows and 2^31 - 64 columns, all windows",
  "matrices of several blocks have more than 1 GB; tests do not make windows of such matrices",
  [f"{M4}/src/m4ri/mzd.c:{f}" for f in ("mzd_init", "mzd_init_window", "mzd_col_swap")] + [f"{M4}/include/m4ri/mzd.h:{f}" for f in ("mzd_row", "mzd_first_row", "mzd_first_row_next_block", "mzd_row_to_block", "mzd_rows_in_block", "mzd_remaining_rows_in_block", "mzd_col_swap_in_rows")])
p("C113",
  "A program that frees each of M4RI's matrices and windows once frees no memory twice and loses none",
  "However a program makes matrices and windows and frees each at most once, mzd_free succeeds and gives back each piece of memory with the size it was asked for, in whatever order matrices and windows are freed; the memory of what is not freed stays allocated and belongs to one matrix only; when all are freed, m4ri_mmc_cleanup gives back all memory. (A matrix that is freed twice is not noticed: the next two requests get the same memory.)",
  "all sequences of calls, all sizes, all thresholds of the cache",
  "the sizes of the pieces depend on the sizes of the matrices and the cache depends on the order of calls; a leak in a rare order does not show in a test",
  [f"{M4}/src/m4ri/mzd.c:{f}" for f in ("mzd_init", "mzd_init_window", "mzd_free")] + [f"{M4}/src/m4ri/mmc.c:{f}" for f in ("m4ri_mmc_malloc", "m4ri_mmc_free", "m4ri_mmc_cleanup")])

p("C114",
  "M4RI solves systems with triangular matrices from the left",
  "mzd_trsm_lower_left(L, B, cutoff) and mzd_trsm_upper_left(U, B, cutoff) replace B by the only X with L * X = B and U * X = B, where the diagonal counts as ones and only the entries below and above it are read; no bit outside of B changes; matrices whose sizes do not match make the program abort. (False: mzd_trsm_upper_left does not prepare the cutoff and accesses memory outside of the matrices for some cutoffs that are not multiples of 64, e.g. 1000 rows, 600 columns and the cutoff 40; and if B has no columns the word before the first one of a row is accessed.)",
  "all triangular matrices with up to 2^24 rows, all right-hand sides with fewer than 2^29 columns, all cutoffs, all block sizes from 256 on, all parameters of the tables",
  "base case, eight tables, one table and recursion take over from each other depending on size, machine and cutoff; a test covers one machine and few sizes",
  [f"{M4}/src/m4ri/triangular.c:{f}" for f in ("mzd_trsm_lower_left", "_mzd_trsm_lower_left", "mzd_trsm_upper_left", "_mzd_trsm_upper_left")] + [f"{M4}/src/m4ri/triangular_russian.c:{f}" for f in ("_mzd_trsm_lower_left_submatrix", "_mzd_trsm_lower_left_russian", "_mzd_trsm_upper_left_submatrix", "_mzd_trsm_upper_left_russian")])
p("C115",
  "M4RI solves systems with lower triangular matrices from the right",
  "mzd_trsm_lower_right(L, B, cutoff) replaces B by the only X with X * L = B, where the diagonal counts as ones and only the entries below it are read, and _mzd_trsm_upper_right_base does the same for upper triangular matrices of up to 64 columns; no bit outside of B changes; matrices whose sizes do not match make the program abort. (False: with a cutoff below 128, at least 128 rows and certain numbers of columns, e.g. 214 to 255, memory outside of the matrices is accessed.)",
  "all triangular matrices with up to 2^24 rows, all right-hand sides with fewer than 2^29 rows, all cutoffs",
  "the recursion depends on the number of columns and calls a product whose recursion depends on the cutoff; the failing sizes are a thin set",
  [f"{M4}/src/m4ri/triangular.c:{f}" for f in ("mzd_trsm_lower_right", "_mzd_trsm_lower_right", "_mzd_trsm_lower_right_base", "_mzd_trsm_upper_right_base")])

p("C116",
  "M4RI compiles a matrix into a program of row additions that computes the product with the matrix",
  "djb_compile(A) returns, for every matrix A, a program of at most nrows * ncols row additions; executed by djb_apply_mzd on a matrix W of zeros and a matrix V it leaves A * V in W, for all V; A is zero afterwards. (False: for a matrix with columns and without rows an element of the heap that was never written is used as the number of a row; for a window the order of the rows depends on the bits to the right of the window, and the program can be empty although the matrix is not zero.)",
  "all matrices, all V, all contents of new memory",
  "the program depends on the order of the rows in a heap that changes with each operation; a test sees the program of one matrix on a few vectors",
  [f"{M4}/src/m4ri/djb.c:{f}" for f in ("djb_compile", "djb_apply_mzd", "heap_push", "heap_pop", "mzd_compare_rows_revlex")] + [f"{M4}/include/m4ri/djb.h:djb_push_back"])
p("C117",
  "Executing a compiled matrix writes the product into the output matrix",
  "djb_apply_mzd(z, W, V) with the program z of a matrix A writes A * V into W, as djb.h says, and changes nothing else; if the rows of W and V differ in their number of words the program aborts. (False: what W held before is not overwritten: the result is A * V + T * W for an invertible matrix T that depends on the program only, so it is right exactly if W was zero; and columns to the right of a window change.)",
  "all matrices with at least one row, all W and V",
  "tests apply the program to a new matrix of zeros only",
  [f"{M4}/src/m4ri/djb.c:djb_apply_mzd", f"{M4}/include/m4ri/djb.h:djb_apply_mzd"])

p("C118",
  "M4RI's naive PLUQ factorisation factors every matrix and returns its rank",
  "_mzd_pluq_naive(A, P, Q) returns the rank r of A, for every matrix; afterwards the first r columns of A hold, below the diagonal, a unit lower triangular matrix L, the first r rows, on and above the diagonal, a unit upper triangular matrix U, all other entries are zero, P and Q are valid permutations, and the old A is P^T * L * U * Q with the matrices by which mzd_apply_p_left multiplies. What P and Q held before does not matter; bits outside of the matrix do not change.",
  "all matrices, all sizes, all old contents of P and Q",
  "tests compare the product for random matrices, which almost always have full rank or nearly so",
  [f"{M4}/src/m4ri/ple.c:_mzd_pluq_naive"])
p("C119",
  "M4RI's naive PLE factorisation factors every matrix into a lower triangular and an echelon matrix",
  "_mzd_ple_naive(A, P, Q) returns the rank r of A, for every matrix; Q[0] < ... < Q[r-1] are the columns of the pivots; afterwards the first r columns of A hold, below the diagonal, a unit lower triangular matrix L, row i holds, to the right of column Q[i], row i of an echelon matrix E with pivots 1, the diagonal of the first r rows is 1 and all other entries are zero; the old A is P^T * L * E; and E = U * Q for a unit upper triangular U. Bits outside of the matrix do not change.",
  "all matrices, all sizes, all old contents of P and Q",
  "the columns of L are moved after the elimination by exchanges that meet pivot columns of other rows, which depends on where the pivots are",
  [f"{M4}/src/m4ri/ple.c:_mzd_ple_naive"])

p("C120",
  "M4RI solves systems of linear equations from a PLUQ factorisation and reports those without a solution",
  "mzd_pluq_solve_left(A, rank, P, Q, B, cutoff, check), given a PLUQ factorisation of a matrix A0, replaces B by a solution of A0 * X = B whenever there is one, with rows of zeros below it; with check it returns 0 if there is a solution and -1 if there is none, without check it returns 0. Bits outside of B do not change; sizes that do not match make the program abort.",
  "all factorisations, all right-hand sides, with and without check, all cutoffs, all states of the uninitialised memory",
  "the claim compares the result with all matrices X; the triangular systems are solved in windows of A and B whose rows continue into other data, and the path depends on rank, sizes and cutoff",
  [f"{M4}/src/m4ri/solve.c:mzd_pluq_solve_left", f"{M4}/src/m4ri/solve.c:_mzd_pluq_solve_left", f"{M4}/src/m4ri/mzd.c:mzd_is_zero", f"{M4}/include/m4ri/mzd.h:mzd_clear_bits"])

p("C121",
  "M4RI's kernel of a matrix is a basis of the solutions of A * x = 0",
  "mzd_kernel_left_pluq, after the PLUQ factorisation of A0 with rank r: for r = ncols it returns NULL, and only zero solves A0 * x = 0; otherwise it returns a matrix R with ncols - r columns such that A0 * R = 0 and every Y with A0 * Y = 0 is R * Z for exactly one Z.",
  "all factorisations, all sizes, all cutoffs, all states of the uninitialised memory",
  "that the columns are a basis is a statement about all vectors of the kernel; the columns of U are read across word boundaries that depend on the rank",
  [f"{M4}/src/m4ri/solve.c:mzd_kernel_left_pluq", f"{M4}/include/m4ri/mzd.h:mzd_xor_bits"])

p("C122",
  "M4RI's row echelon form from a PLE factorisation is one, and the value returned is the rank",
  "mzd_echelonize_pluq(A, 0) returns the rank of A and replaces A by a matrix in row echelon form that is P * A for an invertible matrix P, for every procedure mzd_ple that factors matrices as C119 says. Bits outside of A do not change, so that it holds for windows.",
  "all matrices, all factorisations, all old contents of the memory of the permutations",
  "the rows are cleared up to a column inside of a word that depends on the row, and whether L has left traces can only be seen with the pivots far from the diagonal",
  [f"{M4}/src/m4ri/echelonform.c:mzd_echelonize_pluq"])

p("C123",
  "M4RI finds the first row of zeros of a matrix",
  "mzd_first_zero_row(A) returns the index of the first row all of whose entries are zero, and the number of rows if there is none; this is what its documentation says.",
  "all matrices and windows with at least one column",
  "tests use it only inside of the factorisation, where a value that is too large costs time and does not change the result",
  [f"{M4}/src/m4ri/mzd.c:mzd_first_zero_row", f"{M4}/include/m4ri/mzd.h:mzd_first_zero_row"])

p("C124",
  "M4RI extracts the upper and the lower triangular part of a matrix",
  "mzd_extract_u(U, A) and mzd_extract_l(L, A) return the square matrix with the entries of A on and above, respectively on and below, the diagonal and zeros elsewhere, in a new matrix if the first argument is NULL and else in the matrix given; a matrix given that has another size makes the program abort.",
  "all matrices of all shapes, both ways to call the functions",
  "the only call in the library passes NULL, and there is no test of these functions",
  [f"{M4}/src/m4ri/mzd.c:mzd_extract_u", f"{M4}/src/m4ri/mzd.c:mzd_extract_l", f"{M4}/include/m4ri/mzd.h:mzd_extract_u"])

p("C125",
  "M4RI's PLUQ factorisation, made from a PLE factorisation, is one",
  "mzd_pluq(A, P, Q) returns the rank k of A and leaves, in the place of A, a lower triangular L with k columns and an upper triangular U with k rows, both with ones on the diagonal, and permutations P and Q such that A = P^T * L * U * Q, for every procedure _mzd_ple that factors matrices as C119 says. Bits outside of A do not change, so that it holds for windows. Permutations of other lengths make the program abort.",
  "all matrices, all PLE factorisations, all sizes of the cache",
  "the columns are exchanged only above the diagonal and in blocks of rows whose number depends on the cache; that this gives U needs the pivots to increase and the entries before them to be zero, which no test looks at",
  [f"{M4}/src/m4ri/ple.c:mzd_pluq", f"{M4}/src/m4ri/ple.c:_mzd_pluq"])

p("C126",
  "M4RI solves linear systems and computes kernels from the matrix itself",
  "mzd_solve_left(A, B, cutoff, check) replaces B by a solution X of A * X = B if there is one, and with the test it returns -1 if there is none and 0 otherwise; mzd_kernel_left_pluq(A) returns NULL if only zero solves A * y = 0 and else a matrix whose columns are a basis of the solutions; for every procedure _mzd_ple that factors matrices as C119 says.",
  "all matrices with rank up to 2^24, all right-hand sides, all PLE factorisations, all cutoffs, both ways to call the function",
  "the tests of the library multiply back random solutions; they have no singular systems in every shape, and whether the columns span all solutions is not tested",
  [f"{M4}/src/m4ri/solve.c:mzd_solve_left", f"{M4}/src/m4ri/solve.c:_mzd_solve_left", f"{M4}/src/m4ri/solve.c:mzd_kernel_left_pluq"])

p("C127",
  "M4RI's reduced row echelon form from a PLUQ factorisation is the reduced row echelon form",
  "mzd_echelonize_pluq(A, 1) returns the rank of A and replaces A by its reduced row echelon form, the same matrix that mzd_echelonize_naive(A, 1) leaves, for every procedure _mzd_ple that factors matrices as C119 says. Bits outside of A do not change.",
  "all matrices with rank up to 2^24, all PLE factorisations, all sizes of the cache",
  "three ways are taken, depending on where the rank is inside of a word and how many words follow; the triangular solver then works on windows or on copies that overlap the factor",
  [f"{M4}/src/m4ri/echelonform.c:mzd_echelonize_pluq"])

p("C128",
  "M4RI's compression of L in the block recursive factorisation moves L and nothing else",
  "_mzd_compress_l(A, r1, n1, r2), called by _mzd_ple after both halves are factored, moves the factor L of the right-hand half, which begins in column n1, to the columns from r1 on, next to the factor of the left-hand half: row by row in the triangle of the r2 rows with pivots and all r2 columns in the rows below. Where it was and between the two there are zeros afterwards, everything else is as before, and the bits behind the last column, which belong to another matrix if A is a window, do not change.",
  "all matrices, all ranks r1 <= n1 and r2, all cuts n1 that are multiples of 64, as _mzd_ple chooses them",
  "the rows below are moved word by word with shifts in place; whether source and destination overlap and which bits of the last word survive depends on r1, n1 and r2 modulo 64, and the block recursion starts only at sizes that few tests reach",
  [f"{M4}/src/m4ri/mzp.c:_mzd_compress_l", f"{M4}/src/m4ri/ple.c:_mzd_ple"])

p("C129",
  "M4RI's functions for single rows clear from the offset on and copy whole rows",
  "mzd_row_clear_offset(M, row, c) sets the entries of the row from column c on to zero, and mzd_copy_row(B, i, A, j) copies row j of A to the first columns of row i of B. Neither changes any other entry, nor bits behind the last column, which belong to another matrix in a window. A row that is too long makes mzd_copy_row abort.",
  "all matrices, all rows, all columns where clearing begins",
  "the first word is masked by a macro whose argument counts columns from the other end; a test with an offset of 0, 64 or 128, or with a row that is zero before the offset, does not see which side is cleared",
  [f"{M4}/src/m4ri/mzd.c:mzd_row_clear_offset", f"{M4}/src/m4ri/mzd.c:mzd_copy_row", f"{M4}/include/m4ri/misc.h:__M4RI_RIGHT_BITMASK"])

p("C130",
  "M4RI's test for equality is right and ignores bits behind the last column",
  "mzd_equal(A, B) returns 1 exactly if both matrices have the same number of rows and of columns and the same entries; bits behind the last column, as windows have them, do not matter.",
  "all pairs of matrices, of all sizes, also a matrix and itself",
  "a difference in one of 2^(m*n) places, and unused bits that differ, would have to be tried one by one; the tests of the library use this function to compare everything else",
  [f"{M4}/src/m4ri/mzd.c:mzd_equal"])

p("C131",
  "M4RI's density is the number of ones divided by the number of entries",
  "mzd_density(A, 1), which is documented to use every word, returns the number of ones of A divided by its number of entries. m4ri_bitcount(w) is the number of ones of the word w.",
  "all words; all matrices with rows and columns",
  "the count adds up in parallel in one word, for 2^64 words; what happens to the last word of a row depends on the number of columns and shows only in the value of a quotient that is otherwise plausible",
  [f"{M4}/src/m4ri/mzd.c:mzd_density", f"{M4}/src/m4ri/mzd.c:_mzd_density", f"{M4}/src/m4ri/mzd.c:m4ri_bitcount"])

p("C132",
  "M4RI's functions for groups of up to 64 bits change the group and nothing else",
  "For n from 1 to 64 and a group of n entries of a row from column y on: mzd_read_bits returns them in the lowest n bits of a word, mzd_clear_bits sets them to zero, mzd_xor_bits and mzd_and_bits combine them with the lowest n bits of a word. No other bit of the matrix or beside it changes.",
  "all matrices and windows, all rows, all columns y and lengths n with y + n at most the number of columns, all words",
  "a group lies in one or two words, in 64 positions and with 64 lengths, and what it must not change is everything around it",
  [f"{M4}/include/m4ri/mzd.h:mzd_read_bits", f"{M4}/include/m4ri/mzd.h:mzd_xor_bits", f"{M4}/include/m4ri/mzd.h:mzd_and_bits", f"{M4}/include/m4ri/mzd.h:mzd_clear_bits"])

p("C133",
  "M4RI's hash of a matrix is defined and depends on the entries only",
  "mzd_hash(A) returns a value for every matrix without undefined behaviour, and the same value for two matrices with the same entries.",
  "all matrices and windows, of all sizes",
  "an undefined shift returns some value on every machine, so a test that prints the hash or compares two of them passes; that the hash is defined for next to no matrix is a statement about all of them",
  [f"{M4}/include/m4ri/mzd.h:mzd_hash", f"{M4}/include/m4ri/debug_dump.h:rotate_word", f"{M4}/include/m4ri/debug_dump.h:calculate_hash"])

p("C134",
  "M4RI reverses words, and spreading and packing bits are inverse to each other",
  "m4ri_swap_bits(v) has bit 63-i of v as its bit i. For a table Q of up to 16 increasing positions in [base, base+64), m4ri_spread_bits moves bit k of a word to the place Q[k]-base and m4ri_shrink_bits moves it back; all other bits of the results are zero, and each undoes the other.",
  "all words, all tables, all bases and lengths from 1 to 16",
  "2^64 words and more tables than can be tried; a wrong mask or a missing fall-through in a switch shows for a few bits only",
  [f"{M4}/include/m4ri/misc.h:m4ri_swap_bits", f"{M4}/include/m4ri/misc.h:m4ri_spread_bits", f"{M4}/include/m4ri/misc.h:m4ri_shrink_bits"])

p("C135",
  "M4RI writes a word as text, within the buffer",
  "m4ri_word_to_str(d, w, colon) writes 1 or a space for each of the 64 bits, the lowest first, with a colon after every four of them but the last if colon is set, and ends the string. It writes 80 bytes with colons and 65 without, and leaves the rest of the buffer; the text determines the word.",
  "all words, all buffers of at least this size",
  "a byte written behind the end of a buffer is not seen by a test, and the text is that of one of 2^64 words",
  [f"{M4}/src/m4ri/misc.c:m4ri_word_to_str"])

p("C136",
  "M4RI prints every entry of a matrix, in its place",
  "mzd_fprint writes each row in brackets on a line, an entry as 1 or a space, with | between words and a colon between groups of four columns; bits behind the last column and the old contents of its buffer do not show, and different matrices of one size give different texts.",
  "all matrices and windows, of all sizes, all contents of the buffer",
  "the last word of a row is printed by other code than the words before it; how both fit together depends on the number of columns",
  [f"{M4}/src/m4ri/io.c:mzd_fprint_row", f"{M4}/include/m4ri/io.h:mzd_fprint", f"{M4}/src/m4ri/misc.c:m4ri_word_to_str"])

p("C137",
  "M4RI reads the matrix that a JCF file describes and refuses all others",
  "mzd_from_jcf returns the matrix whose entries the file lists: each number is a column, counted from one, and a negative number begins the next row. If a number lies outside the matrix, the program ends with an error message; a file without header or with another modulus than 2 gives NULL.",
  "all headers, all lists of numbers",
  "files come from elsewhere, and a number that is out of range in a way the check does not see makes the program write outside the matrix, which a test does not notice",
  [f"{M4}/src/m4ri/io.c:mzd_from_jcf"])

p("C138",
  "M4RI's random bits, its random words with _MSC_VER and its random matrices from a callback are evenly distributed if their source is",
  "m4ri_coin_flip returns 0 for as many results of rand() as it returns 1. With _MSC_VER, where rand() has 15 bits, m4ri_random_word returns each word for the same number of results of rand(). mzd_randomize_custom calls the callback once for each word of the matrix, and the entries are the bits of the words that it returns.",
  "all values of RAND_MAX, all words, all matrices, all callbacks and all states of theirs",
  "a count over 2^120 results; no statistical test sees a bias of two results in 2^31",
  [f"{M4}/include/m4ri/misc.h:m4ri_coin_flip", f"{M4}/src/m4ri/misc.c:m4ri_random_word", f"{M4}/src/m4ri/mzd.c:mzd_randomize_custom"])

p("C139",
  "M4RI can be loaded and unloaded any number of times without losing memory or freeing it twice",
  "In every program that calls m4ri_init, m4ri_fini, m4ri_mmc_malloc and m4ri_mmc_free in any order and frees its own blocks at most once, m4ri_fini frees nothing twice and uses no memory that is freed; afterwards only the blocks that the program still holds are allocated. After m4ri_init all parts of the code book are allocated, in their sizes and apart from each other and from the blocks of the program; a second m4ri_init changes nothing.",
  "all programs that use these calls in any order, all block sizes, all thresholds of the cache",
  "the order in which a library is loaded and unloaded depends on the program that uses it, and memory that is freed twice or lost often has no visible effect",
  [f"{M4}/src/m4ri/graycode.c:m4ri_build_all_codes", f"{M4}/src/m4ri/graycode.c:m4ri_destroy_all_codes", f"{M4}/src/m4ri/misc.c:m4ri_init", f"{M4}/src/m4ri/misc.c:m4ri_fini"])

p("C140",
  "M4RI's mzd_row_add changes only the row it adds to, and mzd_read_bits_int returns an index",
  "mzd_row_add adds one row to another, or to itself, and changes nothing else, neither other rows nor the bits behind the last column, which in a window belong to the matrix around it. mzd_read_bits_int returns the number whose bits are the entries of the group, for every group that mzd_read_bits can read.",
  "all matrices and windows, all pairs of rows, all groups of up to 64 bits",
  "the words of a window hold entries of another matrix, and a test that looks at the window does not see that they are gone",
  [f"{M4}/src/m4ri/mzd.c:mzd_row_add", f"{M4}/include/m4ri/mzd.h:mzd_row_add_offset", f"{M4}/include/m4ri/mzd.h:mzd_read_bits_int"])
