#!/usr/bin/env python3
"""Writes /verif/properties.jsonl (one JSON object per line)."""
import json
P=[]
W="src/WBMatrix/WBMatrix.c"; R="src/WBMatrix/random.c"; H="include/WBMatrix/WBMatrix.h"
def p(title, statement, quantifier, why, anchors):
    P.append(dict(id="C%02d"%(len(P)+1), title=title, statement=statement, quantifier=quantifier, why_tests_cant=why, anchors=anchors))
SZ="the seven sizes n in {4,8,16,32,64,128,256}"
p("Matrix-vector product",
  "MatMulVecM<n>(Mat,Vec,&ans) always terminates without undefined behaviour and leaves in ans the GF(2) product Mat*Vec (row i, most significant bit first), whatever ans held before and whatever the byte order of the machine. For n=4 only the low nibbles of Mat and Vec matter.",
  SZ+", every matrix, every vector, every previous content of *ans, both byte orders",
  "2^(n^2+n) input pairs; a test samples a handful of them", [W+":MatMulVecM4..M256", W+":xorU4..xorU256"])
p("Matrix-number product agrees with matrix-vector product",
  "MatMulNumM<n>(Mat,x) returns exactly the vector that MatMulVecM<n> stores for Vec.V=x, i.e. the GF(2) product.",
  "n in {4,8,16,32,64}, every matrix, every number", "input space is 2^(n^2+n)", [W+":MatMulNumM4..M64"])
p("Matrix-matrix product",
  "MatMulMatM<n>(A,B,&C) leaves the GF(2) product A*B in C whatever C held before (for n=4: provided the rows of B use only their low nibble).",
  SZ+", all pairs of matrices, every previous content of *C, both byte orders, every content of uninitialised locals",
  "2^(2n^2) input pairs; existing accuracy test checks only M*M^-1=I on random samples", [W+":MatMulMatM4..M256"])
p("Transposition",
  "MattransM<n>(A,&T) leaves in T the transpose of A: bit (i,j) of T is bit (j,i) of A (for n=4: provided rows use only their low nibble). Hence transposing twice is the identity.",
  SZ+", all matrices", "the mask/shift network could misplace a single bit out of 65536 for one size", [W+":MattransM4..M256"])
p("Addition",
  "MatAddMatM<n> and VecAddVecV<n> leave the entrywise GF(2) sum in the output whatever it held before; addition is commutative, associative and self-inverse (A+A=0).",
  SZ+", all operands", "2^(2n^2) operand pairs", [W+":MatAddMatM4..M256", W+":VecAddVecV4..V256"])
p("Constructors: zero, identity, copy",
  "initM<n>/initV<n> leave the zero matrix/vector, identityM<n> leaves the identity matrix and copyM<n>(A,&B) leaves B bit-for-bit equal to A, whatever the destination held before.",
  SZ+", every previous content of the destination", "depends on arbitrary stale memory contents", [W+":initM4..M256", W+":identityM4..M256", W+":copyM4..M256", W+":initV4..V256"])
p("Matrix equality test",
  "isequalM<n>(A,B) returns 1 exactly when A and B are bit-for-bit equal and 0 otherwise.",
  SZ+", all pairs of matrices", "a comparison that skips one word is only seen on inputs differing only there", [W+":isequalM4..M256"])
p("Vector equality test",
  "isequalV<n>(u,v) returns 1 exactly when u and v are equal and 0 otherwise.",
  SZ+", all pairs of vectors", "the 256-bit version only fails on vectors that agree on the first 128 bits: random tests never hit it", [W+":isequalV4..V256"])
p("Bit access laws",
  "For 0<=i,j<n, readbitM<n> returns bit (i,j); setbitM<n>(.,i,j,b) with b in {0,1} makes bit (i,j) equal b and changes no other bit; flipbitM<n> inverts bit (i,j) and changes no other bit.",
  SZ+", all matrices, all in-range positions, both bit values", "n^2 positions times 2^(n^2) matrices", [W+":readbitM4..M256", W+":setbitM4..M256", W+":flipbitM4..M256"])
p("Bit access needs in-range indices",
  "readbit/flipbit/setbit perform no bounds check: for any row or column index outside 0..n-1 (including negative ones) the call reads or writes outside the array.",
  SZ+", every pair of C ints not both in range", "tests cannot observe undefined behaviour reliably", [W+":readbitM4..M256", W+":flipbitM4..M256"])
p("setbit with a bit value other than 0/1",
  "setbitM<n>(.,i,j,bit) with bit not in {0,1} always flips bit (i,j).",
  SZ+", all matrices, in-range positions, every other C int", "unbounded set of int values", [W+":setbitM4..M256"])
p("Invertibility test",
  "isinvertM<n>(A) returns 1 when A is invertible over GF(2) and 0 otherwise, and never faults (for n=4: for matrices whose rows use only their low nibble).",
  SZ+", all matrices", "singular matrices with a late missing pivot are exponentially rare", [W+":isinvertM4..M256"])
p("Matrix inverse",
  "If A is invertible over GF(2), invsM<n>(A,&B) leaves in B the two-sided inverse of A: A*B=B*A=I, whatever B held before.",
  SZ+", all invertible matrices, every previous content of *B", "2^(n^2) matrices, pivoting paths are data dependent", [W+":invsM4..M256"])
p("Inverse of a singular matrix is silent",
  "If A is singular, invsM<n>(A,&B) does not fail: it leaves some invertible matrix in B, which is not an inverse of A. Callers cannot detect singularity from B.",
  SZ+", all singular matrices", "universally quantified negative claim", [W+":invsM4..M256"])
p("Generated pairs are mutually inverse",
  "After genMatpairM<n>(&A,&B) with distinct destinations, A*B=B*A=I; in particular isinvertM<n>(A)=isinvertM<n>(B)=1, invsM<n>(A)=B and A is never singular.",
  SZ+", every seed, every clock reading, every generator state, every stack garbage, every previous content of A and B", "the random repair path for singular draws is rare and random-number driven; 2^32 seeds", [W+":genMatpairM4..M256"])
p("Pair generation never overruns its trail buffer",
  "genMatpairM<n> records its row operations in a fixed buffer of n*n entries; no execution writes or reads outside that buffer or any other array, and each recorded index fits the uint8_t it is stored in.",
  SZ+", every random matrix and every random choice sequence", "the maximal trail length is reached only for extremely unlikely random draws", [W+":genMatpairM4..M256"])
p("Affine transformation",
  "affineU<n>(aff,x) returns Mat*x xor Vec over GF(2) (n<=64; affineU128 stores it in ans, also when ans and arr are the same array).",
  "n in {4,8,16,32,64,128}, all affine maps, all inputs", "2^(n^2+2n) inputs", [W+":affineU4..U128"])
p("Affine pairs are mutually inverse",
  "After genaffinepairM<n>(&f,&g), affineU<n>(g,affineU<n>(f,x))=x and affineU<n>(f,affineU<n>(g,x))=x (for n=4: for x<16).",
  "n in {4,8,16,32,64,128}, every seed, clock, generator state, and every x", "2^n points for each of 2^32 generator states", [W+":genaffinepairM4..M128"])
p("Affine mix is composition",
  "affinemixM<n>(f,g,&h) leaves in h an affine map with affineU<n>(h,x)=affineU<n>(f,affineU<n>(g,x)) for every x (for n=4: provided the matrix rows of g use only their low nibble).",
  "n in {4,8,16,32,64,128}, all pairs of affine maps, all x, every previous content of h", "2^(2(n^2+n)+n) cases", [W+":affinemixM4..M128"])
p("Concatenation is block diagonal (little endian)",
  "On a little-endian machine MatrixcomM<a>to<b> leaves in mat the block-diagonal matrix diag(m1,...,mk) and VectorcomV<a>to<b> the concatenation v1||...||vk, whatever the destinations held before.",
  "the six pairs 8to32,16to64,8to64,32to128,8to128,16to128; all argument matrices/vectors; every previous content", "every block position and every stale destination content", [W+":MatrixcomM8to32..M16to128", W+":VectorcomV8to32..V16to128"])
p("Concatenated affine maps act blockwise (little endian)",
  "On a little-endian machine, for aff produced by affinecomM<a>to<b>(aff1..affk,&aff), applying aff to x1||...||xk gives affineU(aff1,x1)||...||affineU(affk,xk).",
  "the six size pairs, all affine maps, all inputs", "2^b inputs per tuple of maps", [W+":affinecomM8to32..M16to128"])
p("Concatenation depends on byte order",
  "On a big-endian machine the concatenation functions do not produce the documented block-diagonal matrix / concatenated vector: the sub-words land in reversed order.",
  "all vectors (Vectorcom), and a concrete family of matrices", "no big-endian test machine; a universally quantified claim over a platform parameter", [W+":VectorcomV8to32", W+":MatrixcomM8to32"])
p("Parity",
  "xorU<n>(x) returns the parity (sum mod 2) of the bits of x, on either byte order (xorU4: of all 8 bits of its uint8_t argument).",
  SZ+", all numbers", "2^256 inputs", [W+":xorU4..xorU256", W+":xor"])
p("Hamming weight",
  "HWU<n>(x) returns the number of one bits of x, on either byte order (HWU4: of all 8 bits of its uint8_t argument).",
  "n in {4,8,16,32,64,128}, all numbers", "2^128 inputs", [W+":HWU4..HWU128", W+":HW"])
p("permuteQPR is a permutation",
  "permuteQPR is a bijection on the 32-bit unsigned integers.",
  "all 2^32 (pairs of) inputs", "injectivity quantifies over 2^64 pairs", [R+":permuteQPR"])
p("The generator does not repeat within a period",
  "Between two seedings, any 2^32 consecutive results of cus_random() are pairwise different, so every 32-bit value occurs exactly once per 2^32 calls and the sequence has period exactly 2^32.",
  "every generator state, every pair of call positions", "would need 2^32 calls for each of 2^64 states", [R+":cus_random", R+":permuteQPR"])
p("Seeding is injective",
  "InitRandom with two different seeds always puts the generator into two different states (different index and different offset).",
  "all pairs of seeds", "2^64 pairs", [R+":InitRandom"])
p("Random matrices have pairwise different rows",
  "The rows of a matrix produced by randM32 are pairwise different, and so are the rows of one produced by randM64, randM128 or randM256; a matrix with two equal rows is never drawn.",
  "every seed, clock reading and generator state", "statement about all 2^32 draws", [W+":randM32..randM256", R+":cus_random"])
p("Random functions are determined by seed xor clock",
  "The result of randM<n>, randV<n> (n not 64) and genMatpairM<n> depends only on the value (randseed xor time) used for the last seeding they perform, i.e. on 32 bits; genaffinepairM<n> in addition on the value used by randV<n>. The same SetRandSeed value and same clock readings give the same results.",
  SZ+", all pairs of worlds (seeds, clocks, generator states)", "relational property over all pairs of executions", [W+":randM4..M256", W+":randV4..V256", W+":genMatpairM4..M256", W+":SetRandSeed"])
p("Consecutive random draws in different seconds differ",
  "Two consecutive randM<n> calls without reseeding return different random streams. (Violated: when the counter is even and the clock moves from an even second t to t+1 the second call is seeded identically and returns the very same matrix.)",
  "all counters and clock readings", "needs control of the wall clock at a second boundary", [W+":randM4..M256"])
p("Draws within one second are seeded differently",
  "Within one clock second, any two randM<n>/randV<n> calls fewer than 2^32 calls apart (n not 64) seed the generator with different values and hence different generator states.",
  "all counters, all clock values, all call distances below 2^32", "2^64 pairs of calls", [W+":randM4..M256", W+":randV4..V256"])
p("randV64 honours SetRandSeed",
  "randV64 after SetRandSeed(s) depends on s. (Violated: randV64 never reseeds the generator; its result is a function of the generator state left behind by earlier calls, and in a fresh process it is a constant.)",
  "all seeds and clock readings", "claim about absence of dependence on any seed", [W+":randV64"])
p("4-bit results stay in the low nibble",
  "identityM4, initM4, randM4, randV4, invsM4, MattransM4, MatMulMatM4, MatMulVecM4, MatMulNumM4 and both outputs of genMatpairM4/genaffinepairM4 have zero high nibbles for every input whatsoever, so any composition of them satisfies the low-nibble precondition of the other 4-bit functions.",
  "all inputs, including ones with dirty high nibbles; all worlds", "closure property over all call compositions", [W+":M4 functions"])
p("Dirty high nibbles break 4-bit functions",
  "isinvertM4, MattransM4 and MatMulMatM4 only meet their contract for matrices with zero high nibbles: there are matrices equal on the low nibbles for which they answer differently.",
  "existence, plus exact characterisation of which arguments may be dirty", "tests only use generated (clean) matrices", [W+":isinvertM4", W+":MattransM4", W+":MatMulMatM4"])
p("Ring laws through the API",
  "The matrix operations form the matrix ring over GF(2): products are associative and distribute over sums, identityM is neutral, (A*B)^T=B^T*A^T, and inverse(A*B)=inverse(B)*inverse(A) when computed by the library.",
  SZ+", all matrices (all clean matrices for n=4)", "triples of matrices", [W+":MatMulMatM4..M256", W+":MatAddMatM4..M256", W+":MattransM4..M256", W+":invsM4..M256"])
p("Purity of the deterministic API",
  "No function other than SetRandSeed, the rand*, gen* functions, InitRandom and cus_random reads or changes the seed or generator state; inputs passed by value are never modified, so an output may alias the object an input was copied from.",
  "all functions, all states", "frame property over all states", [W])
p("printbit shows the matrix",
  "printbitM<n> writes exactly n lines of n tokens, token j of line i being the digit of bit (i,j), then an empty line; different matrices give different outputs.",
  "n in {4,8,16,32,64,128}, all matrices", "2^(n^2) matrices", [W+":printbitM4..M128"])
p("printM/printV text determines the value",
  "printM<n>, printV<n> write every row as 0x-prefixed hexadecimal words; the text determines the matrix/vector uniquely.",
  SZ+", all values", "injectivity over all pairs of values", [W+":printM4..M256", W+":printV4..V256"])
p("printU prints the number",
  "printU<n> writes 0x and the hexadecimal value. (Violated for printU64 and printU128: the format is '0llx%x' with a 64-bit argument, an argument/conversion mismatch, which is undefined behaviour for every input.)",
  "n in {8,16,32,64,128,256}, all numbers", "universal claim about undefined behaviour", [W+":printU8..U256"])
p("Every declared function is defined",
  "Every function declared in WBMatrix.h has a definition. (Violated: affineU256, HWU256, genaffinepairM256, affinemixM256, printbitM256 are declared but not defined.)",
  "all declarations in the header", "a link-time property of the whole library", [H, W])
# C41 onwards: tools/props_ext.py
import os, runpy
P += runpy.run_path(os.path.join(os.path.dirname(os.path.abspath(__file__)), 'props_ext.py'))['EXT']
with open('/verif/properties.jsonl','w') as f:
    for q in P: f.write(json.dumps(q)+"\n")
print(len(P))
