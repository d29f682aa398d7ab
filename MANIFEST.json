{
 "claims": [
  {
   "property": "C01",
   "status": "proved",
   "theorems": [
    "WB.C01_MatMulVecM4",
    "WB.C01_MatMulVecM8",
    "WB.C01_MatMulVecM16",
    "WB.C01_MatMulVecM32",
    "WB.C01_MatMulVecM64",
    "WB.C01_MatMulVecM128",
    "WB.C01_MatMulVecM256"
   ],
   "note": "All seven sizes, both byte orders, any old output. For n=4 the product of the low nibbles, and the result has a zero high nibble."
  },
  {
   "property": "C02",
   "status": "proved",
   "theorems": [
    "WB.C02_MatMulNumM4",
    "WB.C02_MatMulNumM8",
    "WB.C02_MatMulNumM16",
    "WB.C02_MatMulNumM32",
    "WB.C02_MatMulNumM64"
   ],
   "note": "Equality with the GF(2) product and with the vector stored by MatMulVec."
  },
  {
   "property": "C03",
   "status": "proved",
   "theorems": [
    "WB.C03_MatMulMatM4",
    "WB.C03_MatMulMatM8",
    "WB.C03_MatMulMatM16",
    "WB.C03_MatMulMatM32",
    "WB.C03_MatMulMatM64",
    "WB.C03_MatMulMatM128",
    "WB.C03_MatMulMatM256"
   ],
   "note": "All seven sizes; n=4 needs a clean second operand, as in the English statement (C34 shows that this is necessary)."
  },
  {
   "property": "C04",
   "status": "proved",
   "theorems": [
    "WB.C04_MattransM4",
    "WB.C04_MattransM4_twice",
    "WB.C04_MattransM8",
    "WB.C04_MattransM8_twice",
    "WB.C04_MattransM16",
    "WB.C04_MattransM16_twice",
    "WB.C04_MattransM32",
    "WB.C04_MattransM32_twice",
    "WB.C04_MattransM64",
    "WB.C04_MattransM64_twice",
    "WB.C04_MattransM128",
    "WB.C04_MattransM128_twice",
    "WB.C04_MattransM256",
    "WB.C04_MattransM256_twice"
   ],
   "note": "All seven sizes; the mask-and-shift networks are verified stage by stage for arbitrary matrices."
  },
  {
   "property": "C05",
   "status": "proved",
   "theorems": [
    "WB.C05_MatAddMatM4",
    "WB.C05_VecAddVecV4",
    "WB.C05_MatAddMatM4_laws",
    "WB.C05_MatAddMatM8",
    "WB.C05_VecAddVecV8",
    "WB.C05_MatAddMatM8_laws",
    "WB.C05_MatAddMatM16",
    "WB.C05_VecAddVecV16",
    "WB.C05_MatAddMatM16_laws",
    "WB.C05_MatAddMatM32",
    "WB.C05_VecAddVecV32",
    "WB.C05_MatAddMatM32_laws",
    "WB.C05_MatAddMatM64",
    "WB.C05_VecAddVecV64",
    "WB.C05_MatAddMatM64_laws",
    "WB.C05_MatAddMatM128",
    "WB.C05_VecAddVecV128",
    "WB.C05_MatAddMatM128_laws",
    "WB.C05_MatAddMatM256",
    "WB.C05_VecAddVecV256",
    "WB.C05_MatAddMatM256_laws"
   ],
   "note": "All seven sizes."
  },
  {
   "property": "C06",
   "status": "proved",
   "theorems": [
    "WB.C06_initM4",
    "WB.C06_initV4",
    "WB.C06_identityM4",
    "WB.C06_copyM4",
    "WB.C06_initM8",
    "WB.C06_initV8",
    "WB.C06_identityM8",
    "WB.C06_copyM8",
    "WB.C06_initM16",
    "WB.C06_initV16",
    "WB.C06_identityM16",
    "WB.C06_copyM16",
    "WB.C06_initM32",
    "WB.C06_initV32",
    "WB.C06_identityM32",
    "WB.C06_copyM32",
    "WB.C06_initM64",
    "WB.C06_initV64",
    "WB.C06_identityM64",
    "WB.C06_copyM64",
    "WB.C06_initM128",
    "WB.C06_initV128",
    "WB.C06_identityM128",
    "WB.C06_copyM128",
    "WB.C06_initM256",
    "WB.C06_initV256",
    "WB.C06_identityM256",
    "WB.C06_copyM256"
   ],
   "note": "All seven sizes."
  },
  {
   "property": "C07",
   "status": "proved",
   "theorems": [
    "WB.C07_isequalM4",
    "WB.C07_isequalM4_mat",
    "WB.C07_isequalM8",
    "WB.C07_isequalM8_mat",
    "WB.C07_isequalM16",
    "WB.C07_isequalM16_mat",
    "WB.C07_isequalM32",
    "WB.C07_isequalM32_mat",
    "WB.C07_isequalM64",
    "WB.C07_isequalM64_mat",
    "WB.C07_isequalM128",
    "WB.C07_isequalM128_mat",
    "WB.C07_isequalM256",
    "WB.C07_isequalM256_mat"
   ],
   "note": "All seven sizes."
  },
  {
   "property": "C08",
   "status": "partial",
   "theorems": [
    "WB.C08_isequalV4",
    "WB.C08_isequalV8",
    "WB.C08_isequalV16",
    "WB.C08_isequalV32",
    "WB.C08_isequalV64",
    "WB.C08_isequalV128",
    "WB.C08_isequalV256_violated",
    "WB.C08_isequalV256_partial",
    "WB.C08_isequalV256_zero",
    "WB.C08_isequalV256_blind"
   ],
   "note": "Proved for n up to 128. For n=256 the property is false: C08_isequalV256_violated is the negation, C08_isequalV256_partial the exact behaviour (only words 0 and 1 are compared)."
  },
  {
   "property": "C09",
   "status": "proved",
   "theorems": [
    "WB.C09_readbitM4",
    "WB.C09_flipbitM4",
    "WB.C09_setbitM4",
    "WB.C09_readbitM8",
    "WB.C09_flipbitM8",
    "WB.C09_setbitM8",
    "WB.C09_readbitM16",
    "WB.C09_flipbitM16",
    "WB.C09_setbitM16",
    "WB.C09_readbitM32",
    "WB.C09_flipbitM32",
    "WB.C09_setbitM32",
    "WB.C09_readbitM64",
    "WB.C09_flipbitM64",
    "WB.C09_setbitM64",
    "WB.C09_readbitM128",
    "WB.C09_flipbitM128",
    "WB.C09_setbitM128",
    "WB.C09_readbitM256",
    "WB.C09_flipbitM256",
    "WB.C09_setbitM256"
   ],
   "note": "All sizes of readbitM, flipbitM and setbitM; both in-range results are exact (one bit changes, all others stay)."
  },
  {
   "property": "C10",
   "status": "proved",
   "theorems": [
    "WB.C10_bitM4",
    "WB.C10_bitM8",
    "WB.C10_bitM16",
    "WB.C10_bitM32",
    "WB.C10_bitM64",
    "WB.C10_bitM128",
    "WB.C10_bitM256"
   ],
   "note": "All seven sizes: the result of every call with an index out of range is the out-of-bounds outcome of the model."
  },
  {
   "property": "C11",
   "status": "proved",
   "theorems": [
    "WB.C11_setbitM4",
    "WB.C11_setbitM8",
    "WB.C11_setbitM16",
    "WB.C11_setbitM32",
    "WB.C11_setbitM64",
    "WB.C11_setbitM128",
    "WB.C11_setbitM256"
   ],
   "note": "All sizes."
  },
  {
   "property": "C12",
   "status": "proved",
   "theorems": [
    "WB.C12_isinvertM4",
    "WB.C12_isinvertM4_sound",
    "WB.C12_isinvertM8",
    "WB.C12_isinvertM16",
    "WB.C12_isinvertM32",
    "WB.C12_isinvertM64",
    "WB.C12_isinvertM128",
    "WB.C12_isinvertM256"
   ],
   "note": "All seven sizes; n=4 for clean matrices as in the English statement."
  },
  {
   "property": "C13",
   "status": "proved",
   "theorems": [
    "WB.C13_invsM4",
    "WB.C13_invsM8",
    "WB.C13_invsM16",
    "WB.C13_invsM32",
    "WB.C13_invsM64",
    "WB.C13_invsM128",
    "WB.C13_invsM256"
   ],
   "note": "All seven sizes, also for dirty 4-bit matrices."
  },
  {
   "property": "C14",
   "status": "proved",
   "theorems": [
    "WB.C14_invsM4_singular",
    "WB.C14_invsM8_singular",
    "WB.C14_invsM16_singular",
    "WB.C14_invsM32_singular",
    "WB.C14_invsM64_singular",
    "WB.C14_invsM128_singular",
    "WB.C14_invsM256_singular"
   ],
   "note": "All seven sizes."
  },
  {
   "property": "C15",
   "status": "proved",
   "theorems": [
    "WB.C15_genMatpairM4",
    "WB.C15_genMatpairM8",
    "WB.C15_genMatpairM16",
    "WB.C15_genMatpairM32",
    "WB.C15_genMatpairM64",
    "WB.C15_genMatpairM128",
    "WB.C15_genMatpairM256"
   ],
   "note": "All seven sizes, for every world, clock, junk and old output."
  },
  {
   "property": "C16",
   "status": "proved",
   "theorems": [
    "WB.C16_genMatpairM4",
    "WB.C16_genMatpairM8",
    "WB.C16_genMatpairM16",
    "WB.C16_genMatpairM32",
    "WB.C16_genMatpairM64",
    "WB.C16_genMatpairM128",
    "WB.C16_genMatpairM256"
   ],
   "note": "Every array access of the model is bounds checked with the C capacity and the trail entries are 8-bit words, so absence of the error outcome together with C15 is the claim."
  },
  {
   "property": "C17",
   "status": "proved",
   "theorems": [
    "WB.C17_affineU4",
    "WB.C17_affineU8",
    "WB.C17_affineU16",
    "WB.C17_affineU32",
    "WB.C17_affineU64",
    "WB.C17_affineU128",
    "WB.C17_affineU128_inplace"
   ],
   "note": "All six sizes; affineU128 also in place."
  },
  {
   "property": "C18",
   "status": "proved",
   "theorems": [
    "WB.C18_genaffinepairM4",
    "WB.C18_genaffinepairM8",
    "WB.C18_genaffinepairM16",
    "WB.C18_genaffinepairM32",
    "WB.C18_genaffinepairM64",
    "WB.C18_genaffinepairM128"
   ],
   "note": "All six sizes."
  },
  {
   "property": "C19",
   "status": "proved",
   "theorems": [
    "WB.C19_affinemixM4",
    "WB.C19_affinemixM8",
    "WB.C19_affinemixM16",
    "WB.C19_affinemixM32",
    "WB.C19_affinemixM64",
    "WB.C19_affinemixM128"
   ],
   "note": "All six sizes; the outputs are equal as stored words, not only as vectors."
  },
  {
   "property": "C20",
   "status": "proved",
   "theorems": [
    "WB.C20_MatrixcomM8to32",
    "WB.C20_VectorcomV8to32",
    "WB.C20_affinecomM8to32",
    "WB.C20_MatrixcomM16to64",
    "WB.C20_VectorcomV16to64",
    "WB.C20_affinecomM16to64",
    "WB.C20_MatrixcomM8to64",
    "WB.C20_VectorcomV8to64",
    "WB.C20_affinecomM8to64",
    "WB.C20_MatrixcomM32to128",
    "WB.C20_VectorcomV32to128",
    "WB.C20_affinecomM32to128",
    "WB.C20_MatrixcomM8to128",
    "WB.C20_VectorcomV8to128",
    "WB.C20_affinecomM8to128",
    "WB.C20_MatrixcomM16to128",
    "WB.C20_VectorcomV16to128",
    "WB.C20_affinecomM16to128"
   ],
   "note": "All matrix, vector and affine concatenation functions; stated for little-endian machines as in the English statement (C22 treats the other byte order)."
  },
  {
   "property": "C21",
   "status": "proved",
   "theorems": [
    "WB.C21_affinecomM8to32",
    "WB.C21_affinecomM16to64",
    "WB.C21_affinecomM8to64",
    "WB.C21_affinecomM32to128",
    "WB.C21_affinecomM8to128",
    "WB.C21_affinecomM16to128"
   ],
   "note": "Affine concatenation acts on the parts independently, all size pairs."
  },
  {
   "property": "C22",
   "status": "proved",
   "theorems": [
    "WB.C22_VectorcomV8to32",
    "WB.C22_MatrixcomM8to32",
    "WB.C22_VectorcomV16to64",
    "WB.C22_MatrixcomM16to64",
    "WB.C22_VectorcomV8to64",
    "WB.C22_MatrixcomM8to64",
    "WB.C22_VectorcomV32to128",
    "WB.C22_MatrixcomM32to128",
    "WB.C22_VectorcomV8to128",
    "WB.C22_MatrixcomM8to128",
    "WB.C22_VectorcomV16to128",
    "WB.C22_MatrixcomM16to128"
   ],
   "note": "Exact block order on big-endian machines; the results differ from the little-endian ones."
  },
  {
   "property": "C23",
   "status": "proved",
   "theorems": [
    "WB.C23_xorU4",
    "WB.C23_xorU8",
    "WB.C23_xorU16",
    "WB.C23_xorU32",
    "WB.C23_xorU64",
    "WB.C23_xorU128",
    "WB.C23_xorU256"
   ],
   "note": "Whole table checked by kernel evaluation and lifted to all words, both byte orders."
  },
  {
   "property": "C24",
   "status": "proved",
   "theorems": [
    "WB.C24_HWU4",
    "WB.C24_HWU8",
    "WB.C24_HWU16",
    "WB.C24_HWU32",
    "WB.C24_HWU64",
    "WB.C24_HWU128"
   ],
   "note": "Whole table checked by kernel evaluation and lifted to all words, both byte orders."
  },
  {
   "property": "C25",
   "status": "proved",
   "theorems": [
    "WB.C25_permuteQPR"
   ],
   "note": "permuteQPR is a bijection; the modulus is proved prime by kernel-evaluated trial division."
  },
  {
   "property": "C26",
   "status": "proved",
   "theorems": [
    "WB.C26_distinct",
    "WB.C26_every_value_once",
    "WB.C26_period",
    "WB.C26_no_smaller_period"
   ],
   "note": "Distinctness, every value exactly once, period 2^32 and no smaller period."
  },
  {
   "property": "C27",
   "status": "proved",
   "theorems": [
    "WB.C27_InitRandom",
    "WB.C27_InitRandom_onto"
   ],
   "note": "Injective in each of the two state words; also onto."
  },
  {
   "property": "C28",
   "status": "proved",
   "theorems": [
    "WB.C28_randM32",
    "WB.C28_randM64",
    "WB.C28_randM128_words",
    "WB.C28_randM128",
    "WB.C28_randM256_words",
    "WB.C28_randM256"
   ],
   "note": "Sizes 32, 64, 128, 256, both byte orders; for 128 and 256 even all 64-bit words are pairwise different."
  },
  {
   "property": "C29",
   "status": "proved",
   "theorems": [
    "WB.C29_randM4",
    "WB.C29_randV4",
    "WB.C29_genMatpairM4",
    "WB.C29_randM8",
    "WB.C29_randV8",
    "WB.C29_genMatpairM8",
    "WB.C29_randM16",
    "WB.C29_randV16",
    "WB.C29_genMatpairM16",
    "WB.C29_randM32",
    "WB.C29_randV32",
    "WB.C29_genMatpairM32",
    "WB.C29_randM64",
    "WB.C29_genMatpairM64",
    "WB.C29_randM128",
    "WB.C29_randV128",
    "WB.C29_genMatpairM128",
    "WB.C29_randM256",
    "WB.C29_randV256",
    "WB.C29_genMatpairM256",
    "WB.C29_SetRandSeed_genMatpairM8",
    "WB.C29_SetRandSeed_randM4",
    "WB.C29_SetRandSeed_randV4",
    "WB.C29_SetRandSeed_genMatpairM4",
    "WB.C29_genaffinepairM4",
    "WB.C29_SetRandSeed_genaffinepairM4",
    "WB.C29_SetRandSeed_randM8",
    "WB.C29_SetRandSeed_randV8",
    "WB.C29_genaffinepairM8",
    "WB.C29_SetRandSeed_genaffinepairM8",
    "WB.C29_SetRandSeed_randM16",
    "WB.C29_SetRandSeed_randV16",
    "WB.C29_SetRandSeed_genMatpairM16",
    "WB.C29_genaffinepairM16",
    "WB.C29_SetRandSeed_genaffinepairM16",
    "WB.C29_SetRandSeed_randM32",
    "WB.C29_SetRandSeed_randV32",
    "WB.C29_SetRandSeed_genMatpairM32",
    "WB.C29_genaffinepairM32",
    "WB.C29_SetRandSeed_genaffinepairM32",
    "WB.C29_SetRandSeed_randM64",
    "WB.C29_SetRandSeed_genMatpairM64",
    "WB.C29_genaffinepairM64",
    "WB.C29_SetRandSeed_genaffinepairM64",
    "WB.C29_SetRandSeed_randM128",
    "WB.C29_SetRandSeed_randV128",
    "WB.C29_SetRandSeed_genMatpairM128",
    "WB.C29_genaffinepairM128",
    "WB.C29_SetRandSeed_genaffinepairM128",
    "WB.C29_SetRandSeed_randM256",
    "WB.C29_SetRandSeed_randV256",
    "WB.C29_SetRandSeed_genMatpairM256"
   ],
   "note": "Relational proof: any two worlds, stack garbages and old outputs. The pair generators depend only on the second of their two seedings."
  },
  {
   "property": "C30",
   "status": "partial",
   "theorems": [
    "WB.C30_randM4_violated",
    "WB.C30_randM4_partial",
    "WB.C30_randV4_violated",
    "WB.C30_randV4_partial",
    "WB.C30_randM8_violated",
    "WB.C30_randM8_partial",
    "WB.C30_randV8_violated",
    "WB.C30_randV8_partial",
    "WB.C30_randM16_violated",
    "WB.C30_randM16_partial",
    "WB.C30_randV16_violated",
    "WB.C30_randV16_partial",
    "WB.C30_randM32_violated",
    "WB.C30_randM32_partial",
    "WB.C30_randV32_violated",
    "WB.C30_randV32_partial",
    "WB.C30_randM64_violated",
    "WB.C30_randM64_partial",
    "WB.C30_randM128_violated",
    "WB.C30_randM128_partial",
    "WB.C30_randV128_violated",
    "WB.C30_randV128_partial",
    "WB.C30_randM256_violated",
    "WB.C30_randM256_partial",
    "WB.C30_randV256_violated",
    "WB.C30_randV256_partial",
    "WB.C30_collision"
   ],
   "note": "The property is false. *_violated: whole families of states in which two consecutive calls return the same object, for every size. *_partial: the generator states differ whenever counter xor clock differs; C30_collision is the exact collision condition."
  },
  {
   "property": "C31",
   "status": "proved",
   "theorems": [
    "WB.C31_calls",
    "WB.C31_consecutive"
   ],
   "note": "Arbitrary call sequences (all rand and gen functions) between the two calls, fewer than 2^32 seedings apart; only the two clock readings involved must be equal."
  },
  {
   "property": "C32",
   "status": "partial",
   "theorems": [
    "WB.C32_randV64_violated",
    "WB.C32_randV64_fresh_violated",
    "WB.C32_randV64_partial"
   ],
   "note": "The property is false. *_violated: the result does not depend on seed or clock, and is a fixed constant in a fresh process. *_partial: with another rand call in between the seed does reach the generator state used by randV64."
  },
  {
   "property": "C33",
   "status": "proved",
   "theorems": [
    "WB.C33_initM4",
    "WB.C33_identityM4",
    "WB.C33_randM4",
    "WB.C33_randV4",
    "WB.C33_invsM4",
    "WB.C33_MattransM4",
    "WB.C33_MatMulMatM4",
    "WB.C33_MatMulVecM4",
    "WB.C33_MatMulNumM4",
    "WB.C33_genMatpairM4",
    "WB.C33_genaffinepairM4"
   ],
   "note": "Eleven functions on 4-bit objects."
  },
  {
   "property": "C34",
   "status": "proved",
   "theorems": [
    "WB.C34_isinvertM4_dirty",
    "WB.C34_MattransM4_dirty",
    "WB.C34_MatMulMatM4_dirty",
    "WB.C34_MattransM4_exact",
    "WB.C34_MatMulMatM4_exact",
    "WB.C34_isinvertM4_exact",
    "WB.C34_MatMulVecM4_any",
    "WB.C34_invsM4_any"
   ],
   "note": "Violations by witness plus exact characterisations for arbitrary (dirty) contents."
  },
  {
   "property": "C35",
   "status": "proved",
   "theorems": [
    "WB.C35_mul_assocM4",
    "WB.C35_mul_addM4",
    "WB.C35_add_mulM4",
    "WB.C35_oneM4",
    "WB.C35_transposeM4",
    "WB.C35_invsM4",
    "WB.C35_mul_assocM8",
    "WB.C35_mul_addM8",
    "WB.C35_add_mulM8",
    "WB.C35_oneM8",
    "WB.C35_transposeM8",
    "WB.C35_invsM8",
    "WB.C35_mul_assocM16",
    "WB.C35_mul_addM16",
    "WB.C35_add_mulM16",
    "WB.C35_oneM16",
    "WB.C35_transposeM16",
    "WB.C35_invsM16",
    "WB.C35_mul_assocM32",
    "WB.C35_mul_addM32",
    "WB.C35_add_mulM32",
    "WB.C35_oneM32",
    "WB.C35_transposeM32",
    "WB.C35_invsM32",
    "WB.C35_mul_assocM64",
    "WB.C35_mul_addM64",
    "WB.C35_add_mulM64",
    "WB.C35_oneM64",
    "WB.C35_transposeM64",
    "WB.C35_invsM64",
    "WB.C35_mul_assocM128",
    "WB.C35_mul_addM128",
    "WB.C35_add_mulM128",
    "WB.C35_oneM128",
    "WB.C35_transposeM128",
    "WB.C35_invsM128",
    "WB.C35_mul_assocM256",
    "WB.C35_mul_addM256",
    "WB.C35_add_mulM256",
    "WB.C35_oneM256",
    "WB.C35_transposeM256",
    "WB.C35_invsM256"
   ],
   "note": "Ring laws observed through the API, all seven sizes, bit for bit."
  },
  {
   "property": "C36",
   "status": "proved",
   "theorems": [
    "WB.C36_printM4_frame",
    "WB.C36_printV4_frame",
    "WB.C36_printbitM4_frame",
    "WB.C36_printM8_frame",
    "WB.C36_printV8_frame",
    "WB.C36_printbitM8_frame",
    "WB.C36_printM16_frame",
    "WB.C36_printV16_frame",
    "WB.C36_printbitM16_frame",
    "WB.C36_printM32_frame",
    "WB.C36_printV32_frame",
    "WB.C36_printbitM32_frame",
    "WB.C36_printM64_frame",
    "WB.C36_printV64_frame",
    "WB.C36_printbitM64_frame",
    "WB.C36_printM128_frame",
    "WB.C36_printV128_frame",
    "WB.C36_printbitM128_frame",
    "WB.C36_printM256_frame",
    "WB.C36_printV256_frame",
    "WB.C36_printU8_frame",
    "WB.C36_printU16_frame",
    "WB.C36_printU32_frame",
    "WB.C36_printU256_frame",
    "WB.C36_inplace4",
    "WB.C36_others4",
    "WB.C36_inplace8",
    "WB.C36_others8",
    "WB.C36_inplace16",
    "WB.C36_others16",
    "WB.C36_inplace32",
    "WB.C36_others32",
    "WB.C36_inplace64",
    "WB.C36_others64",
    "WB.C36_inplace128",
    "WB.C36_others128",
    "WB.C36_inplace256",
    "WB.C36_others256"
   ],
   "note": "Deterministic functions without output have no access to the world in the model (their type is C, not CM), following the C text, which mentions the generator state only in the listed functions; for the print functions the frame is a theorem. Aliasing: *_inplace and *_others theorems over an arbitrary assignment of objects to variables."
  },
  {
   "property": "C37",
   "status": "proved",
   "theorems": [
    "WB.C37_printbitM4",
    "WB.C37_printbitM8",
    "WB.C37_printbitM16",
    "WB.C37_printbitM32",
    "WB.C37_printbitM64",
    "WB.C37_printbitM128",
    "WB.C37_bitText_injective",
    "WB.C37_printbitM4_injective",
    "WB.C37_printbitM8_injective",
    "WB.C37_printbitM16_injective",
    "WB.C37_printbitM32_injective",
    "WB.C37_printbitM64_injective",
    "WB.C37_printbitM128_injective"
   ],
   "note": "All six sizes that exist (printbitM256 is declared but not defined, see C40): the exact text, and different matrices give different texts."
  },
  {
   "property": "C38",
   "status": "proved",
   "theorems": [
    "WB.C38_hexWord",
    "WB.C38_printM4",
    "WB.C38_printV4",
    "WB.C38_printM4_injective",
    "WB.C38_printV4_injective",
    "WB.C38_printM8",
    "WB.C38_printV8",
    "WB.C38_printM8_injective",
    "WB.C38_printV8_injective",
    "WB.C38_printM16",
    "WB.C38_printV16",
    "WB.C38_printM16_injective",
    "WB.C38_printV16_injective",
    "WB.C38_printM32",
    "WB.C38_printV32",
    "WB.C38_printM32_injective",
    "WB.C38_printV32_injective",
    "WB.C38_printM64",
    "WB.C38_printV64",
    "WB.C38_printM64_injective",
    "WB.C38_printV64_injective",
    "WB.C38_printM128",
    "WB.C38_printV128",
    "WB.C38_printM128_injective",
    "WB.C38_printV128_injective",
    "WB.C38_printM256",
    "WB.C38_printV256",
    "WB.C38_printM256_injective",
    "WB.C38_printV256_injective"
   ],
   "note": "All seven sizes, matrices and vectors: the exact text, readability of the numbers, and injectivity."
  },
  {
   "property": "C39",
   "status": "partial",
   "theorems": [
    "WB.C39_printU8",
    "WB.C39_printU16",
    "WB.C39_printU32",
    "WB.C39_printU256",
    "WB.C39_printU64_violated",
    "WB.C39_printU128_violated",
    "WB.C39_printU_partial"
   ],
   "note": "The property is false for 64 and 128 bits: every call has undefined behaviour (%x with a 64-bit argument), C39_printU64_violated and C39_printU128_violated. Proved for 8, 16, 32 and 256 bits."
  },
  {
   "property": "C40",
   "status": "partial",
   "theorems": [
    "WB.C40_violated",
    "WB.C40_partial",
    "WB.C40_missing_violated",
    "WB.C40_unique"
   ],
   "note": "The property is false, C40_violated. C40_partial: exactly five functions are missing. The lists are extracted from the text of /repo by tools/gen_symbols.py."
  },
  {
   "property": "C41",
   "status": "proved",
   "theorems": [
    "WB.C41_programs4",
    "WB.C41_programs8",
    "WB.C41_programs16",
    "WB.C41_programs32",
    "WB.C41_programs64",
    "WB.C41_programs128",
    "WB.C41_programs256"
   ],
   "note": "Refinement by induction over the program, all seven sizes."
  },
  {
   "property": "C42",
   "status": "proved",
   "theorems": [
    "WB.C42_genMatpairM4",
    "WB.C42_SetRandSeed_genMatpairM4",
    "WB.C42_genMatpairM8",
    "WB.C42_SetRandSeed_genMatpairM8",
    "WB.C42_genMatpairM16",
    "WB.C42_SetRandSeed_genMatpairM16",
    "WB.C42_genMatpairM32",
    "WB.C42_SetRandSeed_genMatpairM32",
    "WB.C42_genMatpairM64",
    "WB.C42_SetRandSeed_genMatpairM64",
    "WB.C42_genMatpairM128",
    "WB.C42_SetRandSeed_genMatpairM128",
    "WB.C42_genMatpairM256",
    "WB.C42_SetRandSeed_genMatpairM256"
   ],
   "note": "All seven sizes, any old contents, stack garbage and byte order. The elimination of genMatpair is shown to miss a pivot exactly when the drawn matrix is singular."
  },
  {
   "property": "C43",
   "status": "proved",
   "theorems": [
    "WB.C43_sm4_ecb_encrypt"
   ],
   "note": "Against an independent SM4 specification (algebraic S-box, CK by formula) checked on the published test vector; every unsigned long width >= 32."
  },
  {
   "property": "C44",
   "status": "proved",
   "theorems": [
    "WB.C44_sm4_inverse",
    "WB.C44_sm4_ecb_decrypt",
    "WB.C44_sm4_cbc_encrypt",
    "WB.C44_sm4_cbc_roundtrip",
    "WB.C44_sm4_ecb_roundtrip"
   ],
   "note": "ECB and CBC, in place or disjoint buffers; chaining value written back to iv."
  },
  {
   "property": "C45",
   "status": "proved",
   "theorems": [
    "WB.C45_wbsm4_encrypt",
    "WB.C45_wbsm4_encodings_invisible"
   ],
   "note": "The demo code run on the current library (Lib.current); little-endian. main.c timing loops are not modelled."
  },
  {
   "property": "C46",
   "status": "partial",
   "theorems": [
    "WB.C46_setkey_dec_violated",
    "WB.C46_violated",
    "WB.C46_cbc_with_recorded_mode_violated",
    "WB.C46_setkey_enc_partial"
   ],
   "note": "The property is false: C46_violated (every key) and a CBC witness. C46_setkey_enc_partial is the half that holds."
  },
  {
   "property": "C47",
   "status": "proved",
   "theorems": [
    "WB.C47_sm4_ecb_needs_whole_blocks",
    "WB.C47_sm4_ecb_overruns"
   ],
   "note": "Exact characterisation, no assumption on overlap."
  },
  {
   "property": "C48",
   "status": "proved",
   "theorems": [
    "WB.C48_gMul",
    "WB.C48_poly_faithful",
    "WB.C48_aes_sbox",
    "WB.C48_sm4_sbox",
    "WB.C48_initialize_terminates",
    "WB.C48_initialize_eq_table"
   ],
   "note": "poly is the obvious map from bytes to Mathlib polynomials over ZMod 2; the product is Mathlib's remainder modulo a monic polynomial."
  },
  {
   "property": "C49",
   "status": "proved",
   "theorems": [
    "WB.C49_expandKey",
    "WB.C49_transformations",
    "WB.C49_aes_128_encrypt"
   ],
   "note": "Against an independent FIPS 197 specification checked on the published vectors."
  },
  {
   "property": "C50",
   "status": "proved",
   "theorems": [
    "WB.C50_wbaes_encrypt",
    "WB.C50_mixColumns_table",
    "WB.C50_wbaes_encodings_invisible"
   ],
   "note": "The demo code run on the current library (Lib.current), both byte orders; int shifts wrap (see C52). printTables/printState are not modelled."
  },
  {
   "property": "C51",
   "status": "partial",
   "theorems": [
    "WB.C51_repeated_calls",
    "WB.C51_repeated_calls_partial",
    "WB.C51_other_calls_violated",
    "WB.C51_violated"
   ],
   "note": "The property is false: C51_other_calls_violated for every number of calls that is not 1 modulo 4. C51_repeated_calls says exactly what the tables compute after any number of calls; C51_repeated_calls_partial is the case in which the property holds."
  },
  {
   "property": "C52",
   "status": "partial",
   "theorems": [
    "WB.C52_computeTables_violated",
    "WB.C52_violated",
    "WB.C52_computeTables_partial"
   ],
   "note": "The property is false under ISO C for every input: C52_computeTables_violated. C52_computeTables_partial: with wrapping shifts no call faults."
  },
  {
   "property": "C53",
   "status": "proved",
   "theorems": [
    "WB.C53_tables_reveal_key",
    "WB.C53_subBytes_shiftRows_injective",
    "WB.C53_TBoxes_not_randomised",
    "WB.C53_last_round_determines_key",
    "WB.C53_states_in_the_clear"
   ],
   "note": "A negative result about the demo, stated as what holds: the encodings cancel. Demo code on the current library; int shifts wrap (see C52)."
  },
  {
   "property": "C54",
   "status": "proved",
   "theorems": [
    "WB.C54_isequalM4",
    "WB.C54_isequalV4",
    "WB.C54_MattransM4",
    "WB.C54_MatMulMatM4",
    "WB.C54_affinemixM4",
    "WB.C54_genMatpairM4",
    "WB.C54_genaffinepairM4",
    "WB.C54_old_MattransM4_any",
    "WB.C54_old_MatMulMatM4_any",
    "WB.C54_MattransM4_differs",
    "WB.C54_MatMulMatM4_differs",
    "WB.C54_isequalM8",
    "WB.C54_isequalV8",
    "WB.C54_MattransM8",
    "WB.C54_MatMulMatM8",
    "WB.C54_affinemixM8",
    "WB.C54_genMatpairM8",
    "WB.C54_genaffinepairM8",
    "WB.C54_isequalM16",
    "WB.C54_isequalV16",
    "WB.C54_MattransM16",
    "WB.C54_MatMulMatM16",
    "WB.C54_affinemixM16",
    "WB.C54_genMatpairM16",
    "WB.C54_genaffinepairM16",
    "WB.C54_isequalM32",
    "WB.C54_isequalV32",
    "WB.C54_MattransM32",
    "WB.C54_MatMulMatM32",
    "WB.C54_affinemixM32",
    "WB.C54_genMatpairM32",
    "WB.C54_genaffinepairM32",
    "WB.C54_randV32_differs",
    "WB.C54_old_randV32_seeded",
    "WB.C54_isequalM64",
    "WB.C54_isequalV64",
    "WB.C54_MattransM64",
    "WB.C54_MatMulMatM64",
    "WB.C54_affinemixM64",
    "WB.C54_genMatpairM64",
    "WB.C54_genaffinepairM64",
    "WB.C54_randV64_differs",
    "WB.C54_old_randV64_seeded",
    "WB.C54_old_randV64_uses_seed",
    "WB.C54_isequalM128",
    "WB.C54_isequalV128",
    "WB.C54_MattransM128",
    "WB.C54_MatMulMatM128",
    "WB.C54_affinemixM128",
    "WB.C54_genMatpairM128",
    "WB.C54_genaffinepairM128",
    "WB.C54_randV128_differs",
    "WB.C54_old_randV128_seeded"
   ],
   "note": "Functions whose text differs between the versions are modelled separately (Model/Old.lean); functions with identical text share the definition, which is justified by a textual comparison, not by a theorem. isinvertM128 and invsM128 differ only by declaring the swap variable as an array and share the definition. printU64 and printU128 are not compared (both versions pass a 64-bit value to %x, see C39)."
  },
  {
   "property": "C55",
   "status": "proved",
   "theorems": [
    "WB.C55_wbsm4_encrypt",
    "WB.C55_wbsm4_versions_agree",
    "WB.C55_wbaes_encrypt",
    "WB.C55_wbaes_same_tables",
    "WB.C55_wbaes_tables_reveal_key"
   ],
   "note": "Little-endian for SM4 (see C45). int shifts wrap for AES (see C52)."
  },
  {
   "property": "C56",
   "status": "proved",
   "theorems": [
    "WB.C56_InvTMatM4",
    "WB.C56_InvTMatM4_overflow",
    "WB.C56_InvTMatM8",
    "WB.C56_InvTMatM8_overflow",
    "WB.C56_InvTMatM16",
    "WB.C56_InvTMatM16_overflow",
    "WB.C56_InvTMatM32",
    "WB.C56_InvTMatM32_overflow",
    "WB.C56_InvTMatM64",
    "WB.C56_InvTMatM64_overflow",
    "WB.C56_InvTMatM128",
    "WB.C56_InvTMatM128_overflow",
    "WB.C56_InvTMatM256",
    "WB.C56_InvTMatM256_overflow"
   ],
   "note": "The seed counter of this program is an int; C56_InvTMatM{n}_overflow covers the largest one. The timing code in main is not modelled."
  },
  {
   "property": "C57",
   "status": "partial",
   "theorems": [
    "WB.C57_lowM4",
    "WB.C57_upM4",
    "WB.C57_InvTMatM4",
    "WB.C57_InvTMatM4_overflow",
    "WB.C57_lowM8",
    "WB.C57_upM8",
    "WB.C57_InvTMatM8",
    "WB.C57_InvTMatM8_overflow",
    "WB.C57_lowM16",
    "WB.C57_upM16",
    "WB.C57_InvTMatM16",
    "WB.C57_InvTMatM16_overflow",
    "WB.C57_lowM32",
    "WB.C57_upM32",
    "WB.C57_InvTMatM32",
    "WB.C57_InvTMatM32_overflow",
    "WB.C57_lowM64",
    "WB.C57_upM64",
    "WB.C57_InvTMatM64",
    "WB.C57_InvTMatM64_overflow",
    "WB.C57_lowM128",
    "WB.C57_upM128",
    "WB.C57_InvTMatM128",
    "WB.C57_InvTMatM128_overflow",
    "WB.C57_lowM256",
    "WB.C57_upM256_partial",
    "WB.C57_upM256_flat_partial",
    "WB.C57_upM256_violated",
    "WB.C57_InvTMatM256_flat_partial",
    "WB.C57_InvTMatM256_partial",
    "WB.C57_InvTMatM256_violated",
    "WB.C57_InvTMatM256_overflow"
   ],
   "note": "False for size 256: C57_upM256_violated, C57_InvTMatM256_violated. C57_upM256_partial and C57_InvTMatM256_partial say exactly when the index is out of range and what is computed otherwise; the _flat_partial theorems what happens where the access reaches the next row. Sizes up to 128 hold in full. The timing code in main is not modelled."
  },
  {
   "property": "C58",
   "status": "proved",
   "theorems": [
    "WB.C58_InvTMatM4",
    "WB.C58_MatrixpairM4",
    "WB.C58_InvTMatM4_terminates",
    "WB.C58_InvTMatM4_may_diverge",
    "WB.C58_InvTMatM8",
    "WB.C58_MatrixpairM8",
    "WB.C58_InvTMatM8_terminates",
    "WB.C58_InvTMatM8_may_diverge",
    "WB.C58_InvTMatM16",
    "WB.C58_MatrixpairM16",
    "WB.C58_InvTMatM16_terminates",
    "WB.C58_InvTMatM16_may_diverge",
    "WB.C58_InvTMatM32",
    "WB.C58_MatrixpairM32",
    "WB.C58_InvTMatM32_terminates",
    "WB.C58_InvTMatM32_may_diverge",
    "WB.C58_InvTMatM64",
    "WB.C58_MatrixpairM64",
    "WB.C58_InvTMatM64_terminates",
    "WB.C58_InvTMatM64_may_diverge",
    "WB.C58_InvTMatM128",
    "WB.C58_MatrixpairM128",
    "WB.C58_InvTMatM128_terminates",
    "WB.C58_InvTMatM128_may_diverge",
    "WB.C58_InvTMatM256",
    "WB.C58_MatrixpairM256",
    "WB.C58_InvTMatM256_terminates",
    "WB.C58_InvTMatM256_may_diverge"
   ],
   "note": "The unbounded loop is modelled with a bound that the theorems quantify over; running out of it is the outcome diverge. The timing code in main is not modelled."
  },
  {
   "property": "C59",
   "status": "partial",
   "theorems": [
    "WB.C59_TrailM8",
    "WB.C59_InvTMatM8",
    "WB.C59_MatrixpairM8",
    "WB.C59_InvSMatM8",
    "WB.C59_M8_overflow",
    "WB.C59_TrailM16",
    "WB.C59_InvTMatM16",
    "WB.C59_MatrixpairM16",
    "WB.C59_InvSMatM16",
    "WB.C59_M16_overflow",
    "WB.C59_TrailM32",
    "WB.C59_InvTMatM32",
    "WB.C59_MatrixpairM32",
    "WB.C59_InvSMatM32",
    "WB.C59_M32_overflow",
    "WB.C59_TrailM64",
    "WB.C59_InvTMatM64",
    "WB.C59_MatrixpairM64",
    "WB.C59_InvSMatM64",
    "WB.C59_M64_overflow",
    "WB.C59_TrailM128",
    "WB.C59_InvTMatM128_partial",
    "WB.C59_InvTMatM128_violated",
    "WB.C59_MatrixpairM128_violated",
    "WB.C59_InvSMatM128_violated",
    "WB.C59_M128_overflow"
   ],
   "note": "Proved in full for sizes 8 to 64. False for size 128: C59_MatrixpairM128_violated and C59_InvSMatM128_violated (for every generator and trail), C59_InvTMatM128_violated; C59_InvTMatM128_partial says exactly when the result is invertible. The generator of the C library is an arbitrary function. The timing code in main is not modelled."
  },
  {
   "property": "C60",
   "status": "proved",
   "theorems": [
    "WB.C60_accuracy_little",
    "WB.C60_accuracy_big"
   ],
   "note": "The whole main function, including all printed text. Blocks that the program repeats per width are written once and instantiated (tools/check_accuracy.py compares the text of the instances). The loop counter after a loop with break is represented by whether the loop was left early."
  },
  {
   "property": "C61",
   "status": "proved",
   "theorems": [
    "WB.C61_randM4",
    "WB.C61_genMatpairM4",
    "WB.C61_randM8",
    "WB.C61_genMatpairM8",
    "WB.C61_missed_M8",
    "WB.C61_randM16",
    "WB.C61_genMatpairM16",
    "WB.C61_missed_M16",
    "WB.C61_randM32",
    "WB.C61_genMatpairM32",
    "WB.C61_missed_M32",
    "WB.C61_randM64",
    "WB.C61_genMatpairM64",
    "WB.C61_missed_M64",
    "WB.C61_randM128",
    "WB.C61_genMatpairM128",
    "WB.C61_missed_M128",
    "WB.C61_randM256",
    "WB.C61_genMatpairM256",
    "WB.C61_missed_M256"
   ],
   "note": "For size 4 a table of 65536 seeds is checked by the kernel (tools/gen_c61_reach4.py). The sets are over all runs of the model; the bound for genMatpair of sizes 8 and more is not claimed to be attained."
  },
  {
   "property": "C62",
   "status": "proved",
   "theorems": [
    "WB.C62_randM32",
    "WB.C62_randM32_same_second",
    "WB.C62_randM64",
    "WB.C62_randM64_same_second",
    "WB.C62_randM128",
    "WB.C62_randM128_same_second",
    "WB.C62_randM256",
    "WB.C62_randM256_same_second"
   ],
   "note": "Nineteen consecutive draws determine the generator state: the squares modulo p would have to differ by a constant modulo 2^32."
  },
  {
   "property": "C63",
   "status": "proved",
   "theorems": [
    "WB.C63_getrandbit",
    "WB.C63_getrandbit_first",
    "WB.C63_sequence",
    "WB.C63_calls",
    "WB.C63_bound_attained"
   ],
   "note": "Primitivity of the register polynomial from kernel-checked certificates (tools/gen_lfsr.py): powers by squaring, one inverse per prime factor of 2^80 - 1, primality by Lucas. The bits by counting first returns to the states with bit 78 set on the single cycle of the squared register."
  },
  {
   "property": "C64",
   "status": "proved",
   "theorems": [
    "WB.C64_RandbitMatM4",
    "WB.C64_InvTMatM4",
    "WB.C64_InvTMatM4_never",
    "WB.C64_InvTMatM4_clean",
    "WB.C64_stack_M4",
    "WB.C64_RandbitMatM8",
    "WB.C64_InvTMatM8",
    "WB.C64_stack_M8",
    "WB.C64_RandbitMatM16",
    "WB.C64_InvTMatM16",
    "WB.C64_stack_M16",
    "WB.C64_RandbitMatM32",
    "WB.C64_InvTMatM32",
    "WB.C64_stack_M32",
    "WB.C64_RandbitMatM64",
    "WB.C64_InvTMatM64",
    "WB.C64_stack_M64",
    "WB.C64_RandbitMatM128",
    "WB.C64_InvTMatM128",
    "WB.C64_stack_M128",
    "WB.C64_RandbitMatM256",
    "WB.C64_InvTMatM256",
    "WB.C64_stack_M256"
   ],
   "note": "The local matrix is uninitialised in the source; the model gives it arbitrary contents env.junk. Whether the loop ends for particular contents (other than the cases stated) is not decided."
  },
  {
   "property": "C65",
   "status": "proved",
   "theorems": [
    "WB.C65_InitVecFromBit",
    "WB.C65_getDigitalFromVec",
    "WB.C65_getDigital64FromVec",
    "WB.C65_getDigital128FromVec",
    "WB.C65_get32FromVec",
    "WB.C65_get64FromVec",
    "WB.C65_get128FromVec",
    "WB.C65_roundTrip",
    "WB.C65_ApplyMatToU8",
    "WB.C65_ApplyMatToU16",
    "WB.C65_ApplyMatToU32",
    "WB.C65_ApplyMatToU64",
    "WB.C65_ApplyMatToU128",
    "WB.C65_AddMatToU32",
    "WB.C65_AddMatToU64",
    "WB.C65_AddMatToU128",
    "WB.C65_GenMatAddU",
    "WB.C65_GenIndMatrix",
    "WB.C65_GenZeroVec",
    "WB.C65_GenMatGf2Mul",
    "WB.C65_GenMatGf2Add",
    "WB.C65_GenMatGf2Inv",
    "WB.C65_GenMatGf2Copy",
    "WB.C65_GenMatGf2Stack",
    "WB.C65_GenMatGf2Concat",
    "WB.C65_GenMatGf2Diag"
   ],
   "note": "M4RI's product, inverse, transpose and random bits are parameters; their contract is M4ri.Ok (C104 shows that M4RI's own algorithms meet it). The heap of matrices is modelled. Copying needs columns or no rows (C105_no_columns_violated)."
  },
  {
   "property": "C66",
   "status": "partial",
   "theorems": [
    "WB.C66_MatGf2Mul",
    "WB.C66_MatGf2Add",
    "WB.C66_MatGf2Stack",
    "WB.C66_MatGf2Concat",
    "WB.C66_MatGf2Inv",
    "WB.C66_MatGf2Transpose",
    "WB.C66_MatGf2Copy_partial",
    "WB.C66_MatGf2Copy_violated",
    "WB.C66_MatGf2Diag_partial",
    "WB.C66_MatGf2Diag_violated",
    "WB.C66_AddMatToU32_violated",
    "WB.C66_AddMatToU64_violated",
    "WB.C66_GenMatAddU_violated",
    "WB.C66_ApplyMatToU8",
    "WB.C66_ApplyMatToU16",
    "WB.C66_ApplyMatToU32",
    "WB.C66_ApplyMatToU64",
    "WB.C66_ApplyMatToU128",
    "WB.C66_AddMatToU128"
   ],
   "note": "False in the points listed: C66_*_violated. The functions that are safe are proved so; C66_MatGf2Copy_partial and C66_MatGf2Diag_partial need a destination that is not an operand; copying also needs columns or no rows (C105_no_columns_violated)."
  },
  {
   "property": "C67",
   "status": "proved",
   "theorems": [
    "WB.C67_IsMatGf2Invertible",
    "WB.C67_IsMatGf2Invertible_rect",
    "WB.C67_IsMatGf2Invertible_empty",
    "WB.C67_GenInvertibleMatGf2",
    "WB.C67_GenInvertibleMatGf2_diverges",
    "WB.C67_GenInvertibleMatGf2_rect",
    "WB.C67_GenInvertibleMatGf2_sound"
   ],
   "note": "mzd_gauss_delayed is modelled and proved to preserve the row space; the last diagonal element of the echelon form decides."
  },
  {
   "property": "C68",
   "status": "partial",
   "theorems": [
    "WB.C68_MatGf2Set_partial",
    "WB.C68_MatGf2Set_violated",
    "WB.C68_InitMatGf2ByValueArray_partial",
    "WB.C68_InitMatGf2ByValueArray_tall_violated",
    "WB.C68_InitMatGf2ByValueArray_wide_violated",
    "WB.C68_InitMatGf2ByValueArray_wide_wrong_violated",
    "WB.C68_InitMatrixFromBitArray"
   ],
   "note": "False in the points listed: C68_*_violated give the exact behaviour; the partial theorems need square matrices and values that are not negative."
  },
  {
   "property": "C69",
   "status": "proved",
   "theorems": [
    "WB.C69_MatGf2Cmp",
    "WB.C69_MatGf2Cmp_sizes",
    "WB.C69_roundTrip",
    "WB.C69_DumpMatGf2",
    "WB.C69_DumpMatGf2Line"
   ],
   "note": "mzd_cmp compares words of 64 columns, from the last word to the first."
  },
  {
   "property": "C70",
   "status": "proved",
   "theorems": [
    "WB.C70_ApplyAffineToU8",
    "WB.C70_ApplyAffineToU16",
    "WB.C70_ApplyAffineToU32",
    "WB.C70_ApplyAffineTransform",
    "WB.C70_ApplyAffineTransform_vector",
    "WB.C70_GenRandomAffineTransform",
    "WB.C70_inverse32",
    "WB.C70_GenIndAffineTransform",
    "WB.C70_AffineTransformFree",
    "WB.C70_roundTrip"
   ],
   "note": "M4RI's product, inverse and transpose are parameters with a contract (M4ri.Ok, see C104). The case in which ApplyAffineTransform uses a freed vector is C70_ApplyAffineTransform_vector."
  },
  {
   "property": "C71",
   "status": "proved",
   "theorems": [
    "WB.m4ri.C71_encrypt",
    "WB.m4ri.C71_same_as_WBMatrix",
    "WB.m4ri.C71_main"
   ],
   "note": "M4RI's product, inverse and transpose are parameters with a contract. Timing and output of main are not modelled; TEST is any positive number. The agreement with the WBMatrix demo is for little-endian machines, as C45."
  },
  {
   "property": "C72",
   "status": "partial",
   "theorems": [
    "WB.m4ri.C72_gen_tables",
    "WB.m4ri.C72_enc",
    "WB.m4ri.C72_main_leak_violated"
   ],
   "note": "False for repeated calls: C72_main_leak_violated. C72_gen_tables and C72_enc are the parts that hold."
  },
  {
   "property": "C73",
   "status": "proved",
   "theorems": [
    "WB.m4ri.C73_encrypt",
    "WB.m4ri.C73_mixColumns_table",
    "WB.m4ri.C73_same_as_WBMatrix"
   ],
   "note": "M4RI's product, inverse and transpose are parameters with a contract. aes.c and the parts of genTables.c without matrices are the same text as in the WBMatrix demo and share its model."
  },
  {
   "property": "C74",
   "status": "partial",
   "theorems": [
    "WB.m4ri.C74_main_tables",
    "WB.m4ri.C74_main_partial",
    "WB.m4ri.C74_other_counts_violated",
    "WB.m4ri.C74_iso_violated",
    "WB.m4ri.C74_violated"
   ],
   "note": "False: C74_other_counts_violated (every TEST that is not 1 modulo 4), C74_iso_violated (ISO C). C74_main_partial is the part that holds; C74_main_tables determines the tables for every TEST."
  },
  {
   "property": "C75",
   "status": "partial",
   "theorems": [
    "WB.m4ri.C75_computeTables_violated",
    "WB.m4ri.C75_main_violated",
    "WB.m4ri.C75_violated"
   ],
   "note": "False: C75_computeTables_violated and C75_main_violated give the exact number of matrices left behind; the part that holds (older matrices are kept) is in the same theorems."
  },
  {
   "property": "C76",
   "status": "proved",
   "theorems": [
    "WB.ntl.C76_RandMat_init",
    "WB.ntl.C76_RandMat_init_any",
    "WB.ntl.C76_InvTMat",
    "WB.ntl.C76_initVec",
    "WB.ntl.C76_random",
    "WB.ntl.C76_genRandomInvMatrix",
    "WB.ntl.C76_genRandomAffineMatrix",
    "WB.ntl.C76_genRandomAffineMatrix2",
    "WB.ntl.C76_genRandomAffineAugmentedMatrix",
    "WB.ntl.C76_more_attempts",
    "WB.ntl.C76_more_attempts_affine"
   ],
   "note": "NTL is described, not modelled (DESIGN.md section 4). Loops that draw until a condition holds have an iteration budget; .diverge means that it is used up, and C76_more_attempts shows that the budget does not influence results."
  },
  {
   "property": "C77",
   "status": "partial",
   "theorems": [
    "WB.ntl.C77_range_partial",
    "WB.ntl.C77_affine_range_partial",
    "WB.ntl.C77_inv_range_partial",
    "WB.ntl.C77_identity_violated",
    "WB.ntl.C77_small_sizes_violated",
    "WB.ntl.C77_large_sizes",
    "WB.ntl.C77_violated"
   ],
   "note": "False: C77_violated, C77_identity_violated, C77_small_sizes_violated. The exact range is C77_range_partial, C77_affine_range_partial and C77_inv_range_partial."
  },
  {
   "property": "C78",
   "status": "proved",
   "theorems": [
    "WB.ntl.C78_initVecFromBit",
    "WB.ntl.C78_initMatrixFromBit",
    "WB.ntl.C78_getDigitalFromVec",
    "WB.ntl.C78_roundtrip",
    "WB.ntl.C78_get32FromVec",
    "WB.ntl.C78_get8FromVec",
    "WB.ntl.C78_getVecFrom32",
    "WB.ntl.C78_augmented",
    "WB.ntl.C78_combineDiagMat",
    "WB.ntl.C78_applyAffine",
    "WB.ntl.C78_applyMat",
    "WB.ntl.C78_addVec",
    "WB.ntl.C78_neutral"
   ],
   "note": "NTL is described, not modelled (DESIGN.md section 4)."
  },
  {
   "property": "C79",
   "status": "partial",
   "theorems": [
    "WB.ntl.C79_stream_violated",
    "WB.ntl.C79_cout_partial",
    "WB.ntl.C79_unset_inverse_violated",
    "WB.ntl.C79_unset_inverse_reachable",
    "WB.ntl.C79_violated"
   ],
   "note": "False: C79_violated, C79_stream_violated, C79_unset_inverse_violated. C79_cout_partial gives the text that is written to cout when the inverse is set."
  },
  {
   "property": "C80",
   "status": "proved",
   "theorems": [
    "WB.ntl.C80_encrypt",
    "WB.ntl.C80_generation_can_return",
    "WB.ntl.C80_same_as_WBMatrix",
    "WB.ntl.C80_main"
   ],
   "note": "The random bits are an arbitrary sequence; the attempts per row and matrix are bounded by fuel, which is arbitrary. NTL's product, sum and inverse are modelled by their mathematical definition. Timing and output of main are not modelled; TEST is any positive number. The agreement with the WBMatrix demo is for little-endian machines, as C45."
  },
  {
   "property": "C81",
   "status": "proved",
   "theorems": [
    "WB.ntl.C81_encrypt",
    "WB.ntl.C81_mixColumns_table",
    "WB.ntl.C81_generation_can_return",
    "WB.ntl.C81_same_as_WBMatrix"
   ],
   "note": "aes.cpp and the parts of genTables.cpp without matrices are the same text as in the WBMatrix demo and share its model. Shifts of int follow C++14 and later (no undefined behaviour). Random bits and NTL as in C80."
  },
  {
   "property": "C82",
   "status": "partial",
   "theorems": [
    "WB.ntl.C82_main_tables",
    "WB.ntl.C82_main_can_return",
    "WB.ntl.C82_main_partial",
    "WB.ntl.C82_other_counts_violated",
    "WB.ntl.C82_violated"
   ],
   "note": "False: C82_violated, C82_other_counts_violated (every TEST that is not 1 modulo 4). C82_main_partial is the part that holds; C82_main_tables determines the tables for every TEST."
  },
  {
   "property": "C83",
   "status": "partial",
   "theorems": [
    "WB.cmp.github6.C83_determinant",
    "WB.cmp.github6.C83_determinant_returns",
    "WB.cmp.github6.C83_determinant_faults",
    "WB.cmp.github6.C83_cofactor_partial",
    "WB.cmp.github6.C83_cofactor_returns",
    "WB.cmp.github6.C83_singular_violated",
    "WB.cmp.github6.C83_order_one_violated",
    "WB.cmp.github6.C83_violated",
    "WB.cmp.github6.C83_mod2",
    "WB.cmp.github6.C83_other_matrices",
    "WB.cmp.github6.C83_main"
   ],
   "note": "False for order 1: C83_violated, C83_order_one_violated (also C83_singular_violated). C83_cofactor_partial and C83_cofactor_returns cover every order from 2 on; C83_determinant covers all orders. Floating point numbers are exact rational numbers in the model; rounding is not modelled."
  },
  {
   "property": "C84",
   "status": "partial",
   "theorems": [
    "WB.cmp.github6.C84_determinant_violated",
    "WB.cmp.github6.C84_cofactor_violated",
    "WB.cmp.github6.C84_order_one_violated",
    "WB.cmp.github6.C84_main_violated",
    "WB.cmp.github6.C84_violated"
   ],
   "note": "False: C84_violated. C84_determinant_violated, C84_cofactor_violated, C84_order_one_violated and C84_main_violated give the exact numbers of blocks."
  },
  {
   "property": "C85",
   "status": "partial",
   "theorems": [
    "WB.cmp.github2.C85_det",
    "WB.cmp.github2.C85_det_too_large",
    "WB.cmp.github2.C85_inverse_partial",
    "WB.cmp.github2.C85_singular",
    "WB.cmp.github2.C85_order_one_violated",
    "WB.cmp.github2.C85_violated",
    "WB.cmp.github2.C85_test"
   ],
   "note": "False for order 1: C85_violated, C85_order_one_violated. C85_inverse_partial covers the orders 2 to 100, C85_det 1 to 100. Floating point numbers are exact rational numbers in the model; rounding is not modelled."
  },
  {
   "property": "C86",
   "status": "partial",
   "theorems": [
    "WB.cmp.github3.C86_determinant",
    "WB.cmp.github3.C86_mulmat",
    "WB.cmp.github3.C86_adjugate_partial",
    "WB.cmp.github3.C86_inverse_partial",
    "WB.cmp.github3.C86_not_square",
    "WB.cmp.github3.C86_adjugate_one_violated",
    "WB.cmp.github3.C86_inverse_one_violated",
    "WB.cmp.github3.C86_adjugate_zero_violated",
    "WB.cmp.github3.C86_violated"
   ],
   "note": "False for order 1: C86_violated, C86_adjugate_one_violated, C86_inverse_one_violated. C86_adjugate_partial and C86_inverse_partial cover every order from 2 on. Floating point numbers are exact rational numbers in the model; rounding is not modelled."
  },
  {
   "property": "C87",
   "status": "partial",
   "theorems": [
    "WB.cmp.github3.C87_adjugate_violated",
    "WB.cmp.github3.C87_inverse_violated",
    "WB.cmp.github3.C87_inverse_one_partial",
    "WB.cmp.github3.C87_violated",
    "WB.cmp.github3.C87_main_violated"
   ],
   "note": "False: C87_violated. C87_adjugate_violated, C87_inverse_violated and C87_main_violated give the exact numbers of blocks; C87_inverse_one_partial is the case without a leak."
  },
  {
   "property": "C88",
   "status": "partial",
   "theorems": [
    "WB.cmp.github4.C88_init",
    "WB.cmp.github4.C88_inverse_partial",
    "WB.cmp.github4.C88_outcome",
    "WB.cmp.github4.C88_singular",
    "WB.cmp.github4.C88_step",
    "WB.cmp.github4.C88_repeated",
    "WB.cmp.github4.C88_bits_violated",
    "WB.cmp.github4.C88_violated"
   ],
   "note": "False: C88_violated, C88_bits_violated. C88_inverse_partial covers every run that returns, C88_outcome and C88_step say exactly when a run does not. Floating point numbers are exact rational numbers in the model; rounding is not modelled."
  },
  {
   "property": "C89",
   "status": "partial",
   "theorems": [
    "WB.cmp.github7.C89_reverse_partial",
    "WB.cmp.github7.C89_outcome",
    "WB.cmp.github7.C89_singular",
    "WB.cmp.github7.C89_main_element",
    "WB.cmp.github7.C89_pivot",
    "WB.cmp.github7.C89_zero_pivot",
    "WB.cmp.github7.C89_permutation_violated",
    "WB.cmp.github7.C89_violated",
    "WB.cmp.github7.C89_second_call",
    "WB.cmp.github7.C89_repeated_violated",
    "WB.cmp.github7.C89_main_violated"
   ],
   "note": "False: C89_violated, C89_permutation_violated, C89_main_violated, C89_repeated_violated. C89_reverse_partial covers every call that returns; C89_outcome, C89_main_element, C89_pivot and C89_zero_pivot say when one does not. Floating point numbers are exact rational numbers in the model; rounding is not modelled."
  },
  {
   "property": "C90",
   "status": "partial",
   "theorems": [
    "WB.cmp.github5.C90_bounds",
    "WB.cmp.github5.C90_last_column_violated",
    "WB.cmp.github5.C90_order_two_partial",
    "WB.cmp.github5.C90_order_one_violated",
    "WB.cmp.github5.C90_singular_violated",
    "WB.cmp.github5.C90_violated",
    "WB.cmp.github5.C90_gf2_violated",
    "WB.cmp.github5.C90_uninitialised_violated"
   ],
   "note": "False: C90_violated, C90_singular_violated, C90_gf2_violated, C90_order_one_violated, C90_uninitialised_violated. C90_order_two_partial is the size for which it holds; C90_bounds and C90_last_column_violated hold for all sizes from 2 on."
  },
  {
   "property": "C91",
   "status": "partial",
   "theorems": [
    "WB.sp.C91_order_partial",
    "WB.sp.C91_emptied_violated",
    "WB.sp.C91_missing",
    "WB.sp.C91_order_violated",
    "WB.sp.C91_violated"
   ],
   "note": "False: C91_violated, C91_order_violated, C91_emptied_violated. C91_order_partial is what holds. The file system is a map from path names to contents; links and missing directories are not modelled."
  },
  {
   "property": "C92",
   "status": "partial",
   "theorems": [
    "WB.sp.C92_square_partial",
    "WB.sp.C92_tall_violated",
    "WB.sp.C92_wide",
    "WB.sp.C92_wide_violated",
    "WB.sp.C92_violated",
    "WB.sp.C92_computeRank_violated",
    "WB.sp.C92_prob_full",
    "WB.sp.C92_prob_pred",
    "WB.sp.C92_test",
    "WB.sp.C92_short"
   ],
   "note": "False for matrices that are not square: C92_violated, C92_tall_violated, C92_wide_violated, and for computeRank: C92_computeRank_violated. C92_square_partial covers all square matrices; C92_test, C92_prob_full and C92_prob_pred the test that uses them. Real numbers instead of floating point numbers."
  },
  {
   "property": "C93",
   "status": "proved",
   "theorems": [
    "WB.sp.C93_linear_complexity",
    "WB.sp.C93_poly",
    "WB.sp.C93_empty",
    "WB.sp.C93_poly_violated",
    "WB.sp.C93_test",
    "WB.sp.C93_short"
   ],
   "note": "Berlekamp-Massey algorithm, proved with formal power series. C93_poly_violated shows what the missing coefficient means. In C93_test numbers are exact instead of floating point numbers."
  },
  {
   "property": "C94",
   "status": "partial",
   "theorems": [
    "WB.sp.C94_whole_partial",
    "WB.sp.C94_whole_range",
    "WB.sp.C94_zero_whole_violated",
    "WB.sp.C94_zero_violated",
    "WB.sp.C94_violated"
   ],
   "note": "False for x = 0: C94_violated, C94_zero_violated, C94_zero_whole_violated. C94_whole_partial covers whole a from 1 to 50 and x > 0. For other a the continued fraction is an approximation, about which nothing is proved. Real numbers instead of floating point numbers."
  },
  {
   "property": "C95",
   "status": "proved",
   "theorems": [
    "WB.sp.C95_monobit",
    "WB.sp.C95_monobit_empty",
    "WB.sp.C95_block",
    "WB.sp.C95_block_short",
    "WB.sp.C95_balanced_violated",
    "WB.sp.C95_runs",
    "WB.sp.C95_runs_equal",
    "WB.sp.C95_longest_8",
    "WB.sp.C95_longest_128",
    "WB.sp.C95_longest_10000",
    "WB.sp.C95_longest_short"
   ],
   "note": "C95_balanced_violated is the consequence of C94 for frequency_within_block_test. Real numbers instead of floating point numbers."
  },
  {
   "property": "C96",
   "status": "partial",
   "theorems": [
    "WB.sp.C96_nonneg",
    "WB.sp.C96_zero",
    "WB.sp.C96_serial_partial",
    "WB.sp.C96_serial_violated",
    "WB.sp.C96_serial_length",
    "WB.sp.C96_entropy_nonneg",
    "WB.sp.C96_entropy_partial",
    "WB.sp.C96_entropy_violated",
    "WB.sp.C96_cycle",
    "WB.sp.C96_violated",
    "WB.sp.C96_cycle_entropy"
   ],
   "note": "False if a statistic is 0 (C96_serial_violated, C96_entropy_violated, C96_violated); C96_serial_partial and C96_entropy_partial are exact otherwise. Real numbers instead of floating point numbers."
  },
  {
   "property": "C97",
   "status": "partial",
   "theorems": [
    "WB.sp.C97_templates",
    "WB.sp.C97_choice",
    "WB.sp.C97_count_partial",
    "WB.sp.C97_count_violated",
    "WB.sp.C97_statement_violated",
    "WB.sp.C97_p_partial",
    "WB.sp.C97_zero",
    "WB.sp.C97_absent_violated",
    "WB.sp.C97_constant_violated",
    "WB.sp.C97_probs",
    "WB.sp.C97_overlapping",
    "WB.sp.C97_overlapping_short"
   ],
   "note": "C97_count_partial and C97_p_partial say what is computed; C97_count_violated, C97_absent_violated, C97_constant_violated what goes wrong. The P value of the overlapping test is a call of gammaincc with 5/2, for which C94 gives no closed form. Real numbers instead of floating point numbers."
  },
  {
   "property": "C98",
   "status": "proved",
   "theorems": [
    "WB.sp.C98_Phi",
    "WB.sp.C98_cusum",
    "WB.sp.C98_cusum_exists",
    "WB.sp.C98_cusum_empty",
    "WB.sp.C98_complement",
    "WB.sp.C98_reverse",
    "WB.sp.C98_excursions",
    "WB.sp.C98_excursion",
    "WB.sp.C98_table",
    "WB.sp.C98_variant"
   ],
   "note": "The P values of random_excursion_test are calls of gammaincc with 5/2. Real numbers instead of floating point numbers."
  },
  {
   "property": "C99",
   "status": "proved",
   "theorems": [
    "WB.sp.C99_maurer",
    "WB.sp.C99_default",
    "WB.sp.C99_total",
    "WB.sp.C99_bad"
   ],
   "note": "Real numbers instead of floating point numbers; / between whole numbers as in Python 3."
  },
  {
   "property": "C100",
   "status": "proved",
   "theorems": [
    "WB.m4w.C100_product",
    "WB.m4w.C100_choice",
    "WB.m4w.C100_dimension",
    "WB.m4w.C100_empty",
    "WB.m4w.C100_parity",
    "WB.m4w.C100_codebook",
    "WB.m4w.C100_table"
   ],
   "note": "Word level. k is an arbitrary integer (the code computes it in floating point and clamps it). The second factor must lie in one block of memory if it has less than 54 columns, since matrices in several blocks are transposed by a function that is not modelled."
  },
  {
   "property": "C101",
   "status": "partial",
   "theorems": [
    "WB.m4w.C101_transpose",
    "WB.m4w.C101_twice",
    "WB.m4w.C101_word",
    "WB.m4w.C101_empty_violated",
    "WB.m4w.C101_violated"
   ],
   "note": "False for matrices with rows but no columns or columns but no rows (C101_empty_violated, C101_violated). C101_transpose covers every other matrix that lies, like its transpose, in one block of memory (2^27 words); _mzd_transpose_multiblock is not modelled."
  },
  {
   "property": "C102",
   "status": "partial",
   "theorems": [
    "WB.m4w.C102_echelonize",
    "WB.m4w.C102_default",
    "WB.m4w.C102_unique",
    "WB.m4w.C102_choice",
    "WB.m4w.C102_find_pivot",
    "WB.m4w.C102_hang_violated",
    "WB.m4w.C102_violated"
   ],
   "note": "Word level. False for k = 0 with at most three rows and at least 87382 columns (C102_hang_violated, C102_violated: no amount of fuel suffices). C102_echelonize covers k from 1 to 10, C102_default covers k = 0 for all other sizes. The full = 0 variant (_mzd_top_echelonize_m4ri) and k > 10 are not modelled."
  },
  {
   "property": "C103",
   "status": "partial",
   "theorems": [
    "WB.m4w.C103_inverse",
    "WB.m4w.C103_square",
    "WB.m4w.C103_singular_violated",
    "WB.m4w.C103_violated",
    "WB.m4w.C103_not_square"
   ],
   "note": "False for singular matrices (C103_singular_violated, C103_violated); C103_inverse covers every invertible matrix, C103_square says what is returned for every square matrix."
  },
  {
   "property": "C104",
   "status": "proved",
   "theorems": [
    "WB.m4w.C104_contract",
    "WB.m4w.C104_mul",
    "WB.m4w.C104_inv",
    "WB.m4w.C104_transpose",
    "WB.m4w.C104_ApplyMatToU32",
    "WB.m4w.C104_GenMatGf2Inv"
   ],
   "note": "wordLib is the library made of the modelled algorithms; C104_mul, C104_inv and C104_transpose say for which sizes it uses them, the ideal library is used for the remaining (huge) sizes."
  },
  {
   "property": "C105",
   "status": "partial",
   "theorems": [
    "WB.m4w.C105_init",
    "WB.m4w.C105_read_bit",
    "WB.m4w.C105_write_bit",
    "WB.m4w.C105_add",
    "WB.m4w.C105_add_sizes",
    "WB.m4w.C105_concat",
    "WB.m4w.C105_concat_sizes",
    "WB.m4w.C105_stack",
    "WB.m4w.C105_stack_sizes",
    "WB.m4w.C105_copy",
    "WB.m4w.C105_from_str",
    "WB.m4w.C105_randomize",
    "WB.m4w.C105_cmp",
    "WB.m4w.C105_order",
    "WB.m4w.C105_cmp_sizes",
    "WB.m4w.C105_no_columns_violated"
   ],
   "note": "False for matrices with rows but no columns (C105_no_columns_violated: mzd_copy, mzd_cmp, mzd_randomize); proved for all others."
  },
  {
   "property": "C106",
   "status": "partial",
   "theorems": [
    "WB.m4w.C106_reduced",
    "WB.m4w.C106_same",
    "WB.m4w.C106_echelon",
    "WB.m4w.C106_last_bit",
    "WB.m4w.C106_submatrix_partial",
    "WB.m4w.C106_submatrix_oob_violated",
    "WB.m4w.C106_submatrix_violated",
    "WB.m4w.C106_inverse",
    "WB.m4w.C106_singular_violated",
    "WB.m4w.C106_invert_violated",
    "WB.m4w.C106_invert_sizes"
   ],
   "note": "The echelon forms are proved for every matrix. False for submatrices (C106_submatrix_violated; C106_submatrix_partial and C106_submatrix_oob_violated cover all cases) and for the report of singular matrices (C106_invert_violated, C106_singular_violated)."
  },
  {
   "property": "C107",
   "status": "proved",
   "theorems": [
    "WB.m4w.C107_word",
    "WB.m4w.C107_matrix",
    "WB.m4w.C107_invertible",
    "WB.m4w.C107_quarter"
   ],
   "note": "Counts of results of random(); that random() is uniform is the hypothesis of the reading, not of the theorems. The variant for _MSC_VER is not modelled."
  },
  {
   "property": "C108",
   "status": "partial",
   "theorems": [
    "WB.m4w.C108_product_partial",
    "WB.m4w.C108_default",
    "WB.m4w.C108_cutoff",
    "WB.m4w.C108_dimension",
    "WB.m4w.C108_abort_violated",
    "WB.m4w.C108_crash_violated",
    "WB.m4w.C108_overflow_violated",
    "WB.m4w.C108_square_partial",
    "WB.m4w.C108_square_abort_violated",
    "WB.m4w.C108_addmul_partial",
    "WB.m4w.C108_addmul_crash_violated",
    "WB.m4w.C108_addsquare",
    "WB.m4w.C108_violated"
   ],
   "note": "False for small and for very large cutoffs (C108_violated). C108_product_partial, C108_square_partial, C108_addmul_partial and C108_addsquare are for all sizes and cutoffs that are not covered by the theorems that end in _violated, which prove the failure for every matrix of these sizes. With the default cutoff there is no exception (C108_default). C, A and B are different matrices unless the square is meant; one thread."
  },
  {
   "property": "C109",
   "status": "partial",
   "theorems": [
    "WB.m4w.C109_matrix_zero",
    "WB.m4w.C109_matrix_succ",
    "WB.m4w.C109_matrix_inverse",
    "WB.m4w.C109_left",
    "WB.m4w.C109_left_trans",
    "WB.m4w.C109_left_undo",
    "WB.m4w.C109_left_assert",
    "WB.m4w.C109_right_trans_entries",
    "WB.m4w.C109_right_entries",
    "WB.m4w.C109_right_trans_partial",
    "WB.m4w.C109_right_partial",
    "WB.m4w.C109_right_undo_partial",
    "WB.m4w.C109_short_violated",
    "WB.m4w.C109_no_columns_violated",
    "WB.m4w.C109_range_violated",
    "WB.m4w.C109_col_swap",
    "WB.m4w.C109_columns_trans",
    "WB.m4w.C109_columns",
    "WB.m4w.C109_right_violated",
    "WB.m4w.C109_capped_trans",
    "WB.m4w.C109_capped",
    "WB.m4w.C109_capped_partial",
    "WB.m4w.C109_capped_column_violated",
    "WB.m4w.C109_capped_violated",
    "WB.m4w.C109_tri",
    "WB.m4w.C109_tri_sizes",
    "WB.m4w.C109_init",
    "WB.m4w.C109_set_ui",
    "WB.m4w.C109_copy",
    "WB.m4w.C109_copy_violated"
   ],
   "note": "False for columns (C109_right_violated, C109_capped_violated). The rows are right for all permutations that meet the assertions (C109_left, C109_left_trans, C109_left_undo); the columns are right if there is a column and the elements are less than the length of the permutation (C109_right_partial, C109_right_trans_partial, C109_right_undo_partial), and C109_right_entries and C109_right_trans_entries say what is computed otherwise. The versions that exchange columns are right without this condition (C109_columns, C109_columns_trans). The matrix of a permutation is fixed by C109_matrix_zero and C109_matrix_succ. All rows of a matrix lie in one block of memory; assertions are on."
  },
  {
   "property": "C110",
   "status": "proved",
   "theorems": [
    "WB.m4a.C110_log2",
    "WB.m4a.C110_malloc",
    "WB.m4a.C110_free",
    "WB.m4a.C110_live",
    "WB.m4a.C110_memory",
    "WB.m4a.C110_empty",
    "WB.m4a.C110_own"
   ],
   "note": "One thread; addresses are never reused by the system and malloc does not fail. The header of a matrix is abstracted to its place. The invariant of the list of blocks is an induction over all sequences of calls."
  },
  {
   "property": "C111",
   "status": "partial",
   "theorems": [
    "WB.m4a.C111_malloc",
    "WB.m4a.C111_free",
    "WB.m4a.C111_live",
    "WB.m4a.C111_cleanup",
    "WB.m4a.C111_bound",
    "WB.m4a.C111_reuse",
    "WB.m4a.C111_zero_violated",
    "WB.m4a.C111_leak_violated"
   ],
   "note": "False for requests of 0 bytes (C111_zero_violated, C111_leak_violated; M4RI itself makes none). For all other programs C111_malloc, C111_free, C111_live, C111_cleanup, C111_bound and C111_reuse. One thread; addresses are never reused by the system and malloc does not fail."
  },
  {
   "property": "C112",
   "status": "partial",
   "theorems": [
    "WB.m4l.C112_init",
    "WB.m4l.C112_rows",
    "WB.m4l.C112_window_partial",
    "WB.m4l.C112_window_violated",
    "WB.m4l.C112_row",
    "WB.m4l.C112_row_violated",
    "WB.m4l.C112_first",
    "WB.m4l.C112_rows_in_block",
    "WB.m4l.C112_remaining",
    "WB.m4l.C112_remaining_partial",
    "WB.m4l.C112_remaining_violated",
    "WB.m4l.C112_col_swap",
    "WB.m4l.C112_in_rows_partial",
    "WB.m4l.C112_in_rows_violated"
   ],
   "note": "False for windows that start in the middle of a block (C112_remaining_violated, C112_in_rows_violated), for empty windows behind the last row (C112_window_violated) and behind 2^31 words (C112_row_violated); in all other cases right (C112_window_partial, C112_remaining_partial, C112_in_rows_partial, C112_row), and C112_remaining says how much is too much. Right without exception: C112_init, C112_rows, C112_first, C112_rows_in_block, C112_col_swap. Addresses are pairs of a block and a place in it; the words are left out. The cases of C112_in_rows_partial and C112_in_rows_violated together are all cases with start < stop whose first row is before 2^31 words."
  },
  {
   "property": "C113",
   "status": "proved",
   "theorems": [
    "WB.m4a.C113_free",
    "WB.m4a.C113_all",
    "WB.m4a.C113_live",
    "WB.m4a.C113_apart",
    "WB.m4a.C113_twice_violated"
   ],
   "note": "On the cache of C111, one thread; the headers (C110) and the words are left out, sizes are natural numbers. C113_twice_violated shows that the condition on the program is needed."
  },
  {
   "property": "C114",
   "status": "partial",
   "theorems": [
    "WB.m4w.C114_unique",
    "WB.m4w.C114_lower_partial",
    "WB.m4w.C114_upper_partial",
    "WB.m4w.C114_upper_small_partial",
    "WB.m4w.C114_dimension",
    "WB.m4w.C114_cutoff_violated",
    "WB.m4w.C114_no_columns_violated",
    "WB.m4w.C114_violated"
   ],
   "note": "False for mzd_trsm_upper_left with certain cutoffs (C114_cutoff_violated, C114_violated) and for right-hand sides without columns (C114_no_columns_violated). Right for mzd_trsm_lower_left with all cutoffs below 2^29 (C114_lower_partial), for mzd_trsm_upper_left with all cutoffs that are multiples of 64, 0 among them (C114_upper_partial), and with every cutoff up to the block size (C114_upper_small_partial). Missing: which other cutoffs are right for mzd_trsm_upper_left above the block size. Unused bits of B (and U) have to be zero above the block size because the product reads them."
  },
  {
   "property": "C115",
   "status": "partial",
   "theorems": [
    "WB.m4w.C115_unique",
    "WB.m4w.C115_lower_partial",
    "WB.m4w.C115_default",
    "WB.m4w.C115_crash_violated",
    "WB.m4w.C115_upper_base",
    "WB.m4w.C115_dimension",
    "WB.m4w.C115_violated"
   ],
   "note": "False for small cutoffs: C115_lower_partial and C115_crash_violated together are all cases with cutoffs below 2^29, so the exceptions are exact. With the default cutoff there is no exception (C115_default). mzd_trsm_upper_right is not modelled except for its base case (C115_upper_base): above 64 columns it inverts with mzd_trtri_upper."
  },
  {
   "property": "C116",
   "status": "partial",
   "theorems": [
    "WB.m4w.C116_compile_partial",
    "WB.m4w.C116_no_rows_violated",
    "WB.m4w.C116_window_violated",
    "WB.m4w.C116_violated"
   ],
   "note": "False for matrices without rows (C116_no_rows_violated) and for windows with bits to the right (C116_window_violated). Right for all matrices that have rows and whose unused bits are zero (C116_compile_partial), which includes termination, no fault in the heap, and the number of operations."
  },
  {
   "property": "C117",
   "status": "partial",
   "theorems": [
    "WB.m4w.C117_apply_partial",
    "WB.m4w.C117_product_iff",
    "WB.m4w.C117_dimension",
    "WB.m4w.C117_old_rows_violated",
    "WB.m4w.C117_violated",
    "WB.m4w.C117_window_violated"
   ],
   "note": "False if W is not zero (C117_old_rows_violated) and for windows (C117_window_violated). C117_apply_partial gives the result for every W; C117_product_iff: it is the product exactly if W was zero."
  },
  {
   "property": "C118",
   "status": "proved",
   "theorems": [
    "WB.m4w.C118_pluq"
   ],
   "note": "P and Q have the sizes that mzd_pluq demands. mzd_pluq itself calls _mzd_ple, which is not modelled."
  },
  {
   "property": "C119",
   "status": "proved",
   "theorems": [
    "WB.m4w.C119_ple"
   ],
   "note": "P and Q have the sizes that mzd_ple demands. mzd_ple itself calls the block recursive or the table based procedure, which are not modelled."
  },
  {
   "property": "C120",
   "status": "partial",
   "theorems": [
    "WB.m4w.C120_solve_partial",
    "WB.m4w.C120_dimension",
    "WB.m4w.C120_no_columns_violated",
    "WB.m4w.C120_cutoff_violated",
    "WB.m4w.C120_violated",
    "WB.m4w.C120_naive_partial"
   ],
   "note": "False for right-hand sides without columns (C120_no_columns_violated) and for certain cutoffs with ranks above the block size of 512 (C120_cutoff_violated); the full statement is C120_statement, its negation C120_violated. Right for every rank up to the block size, and above it for cutoffs that are multiples of 64 when the rank is a multiple of 64 or the number of columns (C120_solve_partial); with the test and cutoffs below 128 the sizes of C108 that leave the matrices are excluded. C120_naive_partial joins it with the factorisation of C118. Missing: other ranks above 512. mzd_solve_left calls _mzd_pluq, which is not modelled. B has at least as many rows as A; the procedure does not test this. Windows are as in C108: the assertion of mzd_init_window that fails for an empty window behind the last row of a matrix that fills one block of memory exactly (C112) is not part of this model; with check and rank = nrows such a window is made."
  },
  {
   "property": "C121",
   "status": "partial",
   "theorems": [
    "WB.m4w.C121_kernel_partial",
    "WB.m4w.C121_naive_partial",
    "WB.m4w.C121_cutoff_violated",
    "WB.m4w.C121_violated"
   ],
   "note": "False for certain cutoffs with ranks above the block size of 512 (C121_cutoff_violated); the full statement is C121_statement, its negation C121_violated. Right for every rank up to the block size and every cutoff, and above it for ranks and cutoffs that are multiples of 64 (C121_kernel_partial). C121_naive_partial joins it with the factorisation of C118. Missing: other ranks above 512. The factorisation that mzd_kernel_left_pluq itself calls, mzd_pluq, is not modelled."
  },
  {
   "property": "C122",
   "status": "partial",
   "theorems": [
    "WB.m4w.C122_echelon_partial",
    "WB.m4w.C122_naive_factors",
    "WB.m4w.C122_naive",
    "WB.m4w.C122_no_columns_violated",
    "WB.m4w.C122_violated"
   ],
   "note": "False for matrices with rows and without columns, where the word before the first one is accessed (C122_no_columns_violated); the full statement is C122_statement, its negation C122_violated. Right for all others (C122_echelon_partial), for every procedure that satisfies Factors (Verif/SpecM4riPle.lean); C122_naive_factors and C122_naive: the naive factorisation of C119 does. Missing: _mzd_ple itself is not modelled (the branch for full = 1 is C127)."
  },
  {
   "property": "C123",
   "status": "partial",
   "theorems": [
    "WB.m4w.C123_last_partial",
    "WB.m4w.C123_first_iff",
    "WB.m4w.C123_zero_row_violated",
    "WB.m4w.C123_violated",
    "WB.m4w.C123_window_violated",
    "WB.m4w.C123_no_columns_violated"
   ],
   "note": "False: rows of zeros above other rows are not found (C123_zero_row_violated), in windows with fewer than 64 columns bits behind the last column count (C123_window_violated), and a matrix without columns makes the program read outside of it (C123_no_columns_violated); the full statement is C123_statement, its negation C123_violated. What is right: the value is the smallest number from which on all rows are zero (C123_last_partial), and it is the first row of zeros exactly if no row of zeros is above another row (C123_first_iff)."
  },
  {
   "property": "C124",
   "status": "partial",
   "theorems": [
    "WB.m4w.C124_upper_partial",
    "WB.m4w.C124_lower_partial",
    "WB.m4w.C124_sum",
    "WB.m4w.C124_given_upper_violated",
    "WB.m4w.C124_given_lower_violated",
    "WB.m4w.C124_violated",
    "WB.m4w.C124_size"
   ],
   "note": "False for a matrix that is given: A is not read, and the part of the old contents of the given matrix is returned (C124_given_upper_violated, C124_given_lower_violated, which also says which bits outside of a window are lost); the full statement is C124_statement, its negation C124_violated. Right for NULL (C124_upper_partial, C124_lower_partial) and for wrong sizes (C124_size)."
  },
  {
   "property": "C125",
   "status": "partial",
   "theorems": [
    "WB.m4w.C125_rank",
    "WB.m4w.C125_pluq_partial",
    "WB.m4w.C125_size",
    "WB.m4w.C125_no_columns_violated",
    "WB.m4w.C125_naive_factors",
    "WB.m4w.C125_violated"
   ],
   "note": "False for matrices without columns, where the program divides by zero (C125_no_columns_violated); the full statement is C125_statement, its negation C125_violated. Right for all others, for mzd_pluq and _mzd_pluq (C125_pluq_partial), for every procedure that satisfies FactorsPerm (Verif/SpecM4riPle.lean); C125_naive_factors: the naive factorisation of C119 does. C125_rank: the number of a PLUQ factorisation is the rank; C125_size: other lengths. Missing: _mzd_ple itself is not modelled."
  },
  {
   "property": "C126",
   "status": "partial",
   "theorems": [
    "WB.m4w.C126_solve_partial",
    "WB.m4w.C126_kernel_partial",
    "WB.m4w.C126_size",
    "WB.m4w.C126_no_columns_violated",
    "WB.m4w.C126_violated"
   ],
   "note": "False without unknowns, where both functions divide by zero (C126_no_columns_violated), and with the cutoffs of C120 and C121; the full statement is C126_statement, its negation C126_violated. Right under the conditions of C120 and C121 on the rank and the cutoff (C126_solve_partial, C126_kernel_partial), for every procedure that satisfies FactorsPerm; C126_size: fewer rows on the right than unknowns. Missing: _mzd_ple itself is not modelled."
  },
  {
   "property": "C127",
   "status": "partial",
   "theorems": [
    "WB.m4w.C127_echelon_partial",
    "WB.m4w.C127_same",
    "WB.m4w.C127_no_columns_violated",
    "WB.m4w.C127_violated"
   ],
   "note": "False for matrices without columns, where the program divides by zero (C127_no_columns_violated); the full statement is C127_statement, its negation C127_violated. Right for all others with rank at most 512 or a multiple of 64 (C127_echelon_partial), for every procedure that satisfies FactorsPerm; C127_same: the result is that of mzd_echelonize_naive(A, 1). Missing: ranks above 512 that are not multiples of 64 (the triangular solver of C114 then multiplies windows with other bits behind their last column), and _mzd_ple itself."
  },
  {
   "property": "C128",
   "status": "partial",
   "theorems": [
    "WB.m4w.C128_compress_partial",
    "WB.m4w.C128_clean",
    "WB.m4w.C128_behind_violated",
    "WB.m4w.C128_violated"
   ],
   "note": "False for windows: in the rows without pivots the columns behind the matrix, up to the end of the word of column n1 + r2 - 1, are set to zero (C128_behind_violated, for all such matrices); the full statement is C128_statement, its negation C128_violated. The matrix itself is always compressed as stated and outside of those bits nothing changes (C128_compress_partial); matrices with zero unused bits keep them (C128_clean). The cut n1 is a multiple of 64 and less than the number of columns, as in the only call."
  },
  {
   "property": "C129",
   "status": "partial",
   "theorems": [
    "WB.m4w.C129_clear_partial",
    "WB.m4w.C129_clear_violated",
    "WB.m4w.C129_shift_violated",
    "WB.m4w.C129_copy_partial",
    "WB.m4w.C129_copy_size",
    "WB.m4w.C129_no_columns_violated",
    "WB.m4w.C129_violated"
   ],
   "note": "False: with an offset c between 0 and 64 mzd_row_clear_offset clears the columns before c and leaves those from c to 63 (C129_clear_violated, for all matrices); above 64 it shifts by 64 or more unless c is a multiple of 64 (C129_shift_violated), and it clears the unused bits of the last word. mzd_copy_row accesses a word before the row without columns (C129_no_columns_violated). The full statement is C129_statement, its negation C129_violated. Right: offsets that are multiples of 64 (C129_clear_partial), copying rows of matrices with columns (C129_copy_partial), rows that are too long (C129_copy_size)."
  },
  {
   "property": "C130",
   "status": "partial",
   "theorems": [
    "WB.m4w.C130_equal_partial",
    "WB.m4w.C130_size",
    "WB.m4w.C130_same",
    "WB.m4w.C130_no_columns_violated",
    "WB.m4w.C130_violated"
   ],
   "note": "False for two matrices with rows and without columns, where a word before the row is accessed (C130_no_columns_violated); the full statement is C130_statement, its negation C130_violated. Right for all others (C130_equal_partial), for different sizes (C130_size) and for a matrix and itself (C130_same)."
  },
  {
   "property": "C131",
   "status": "partial",
   "theorems": [
    "WB.m4w.C131_bitcount",
    "WB.m4w.C131_density_partial",
    "WB.m4w.C131_last_word_violated",
    "WB.m4w.C131_no_rows",
    "WB.m4w.C131_violated"
   ],
   "note": "False if the number of columns is a multiple of 64 above 64: the last 64 columns are neither counted nor part of the total (C131_last_word_violated, for all such matrices); the full statement is C131_statement, its negation C131_violated. Right for all other numbers of columns (C131_density_partial). m4ri_bitcount is right for all words (C131_bitcount). Without rows 0 is divided by 0 (C131_no_rows). The model returns the two numbers that are divided."
  },
  {
   "property": "C132",
   "status": "partial",
   "theorems": [
    "WB.m4w.C132_read",
    "WB.m4w.C132_clear",
    "WB.m4w.C132_xor",
    "WB.m4w.C132_and_partial",
    "WB.m4w.C132_and_violated",
    "WB.m4w.C132_and_empty_violated",
    "WB.m4w.C132_violated"
   ],
   "note": "False for mzd_and_bits: it takes the highest n bits of the word and clears all other bits of the one or two words that the group lies in (C132_and_violated, for all matrices), and shifts by 64 for n = 0 (C132_and_empty_violated); the full statement is C132_statement, its negation C132_violated. Right: reading (C132_read), clearing (C132_clear), adding (C132_xor), and mzd_and_bits for whole words (C132_and_partial)."
  },
  {
   "property": "C133",
   "status": "partial",
   "theorems": [
    "WB.m4w.C133_same_partial",
    "WB.m4w.C133_defined",
    "WB.m4w.C133_undefined_violated",
    "WB.m4w.C133_zero_row_violated",
    "WB.m4w.C133_window_violated",
    "WB.m4w.C133_violated"
   ],
   "note": "False: rotate_word shifts by 64 - w instead of 64 - shift, which is defined only if the sum of the words of each row is a number from 1 to 64 (C133_defined, both directions; C133_undefined_violated), so never with a row of zeros (C133_zero_row_violated); bits behind the last column change the value (C133_window_violated). The full statement is C133_statement, its negation C133_violated. Right: with zeros behind the last column matrices with the same entries have the same hash or both none (C133_same_partial)."
  },
  {
   "property": "C134",
   "status": "proved",
   "theorems": [
    "WB.m4w.C134_swap",
    "WB.m4w.C134_swap_swap",
    "WB.m4w.C134_spread",
    "WB.m4w.C134_shrink",
    "WB.m4w.C134_shrink_spread",
    "WB.m4w.C134_spread_shrink",
    "WB.m4w.C134_length",
    "WB.m4w.C134_order"
   ],
   "note": "For all words and all increasing tables. Other lengths end the program (C134_length). The order is needed: an entry below base + k at place k makes a shift negative (C134_order)."
  },
  {
   "property": "C135",
   "status": "proved",
   "theorems": [
    "WB.m4w.C135_colon",
    "WB.m4w.C135_plain",
    "WB.m4w.C135_injective"
   ],
   "note": "For all words and all buffers of the size stated in the source; a smaller buffer is shown to be overrun in an example."
  },
  {
   "property": "C136",
   "status": "partial",
   "theorems": [
    "WB.m4w.C136_print_partial",
    "WB.m4w.C136_row",
    "WB.m4w.C136_injective",
    "WB.m4w.C136_no_columns_violated",
    "WB.m4w.C136_violated"
   ],
   "note": "False for matrices with rows and without columns, where the word before the row is accessed (C136_no_columns_violated); the full statement is C136_statement, its negation C136_violated. Right for all others (C136_print_partial, C136_row); the text determines the matrix (C136_injective)."
  },
  {
   "property": "C137",
   "status": "partial",
   "theorems": [
    "WB.m4w.C137_read_partial",
    "WB.m4w.C137_column_partial",
    "WB.m4w.C137_row_partial",
    "WB.m4w.C137_header",
    "WB.m4w.C137_first_violated",
    "WB.m4w.C137_zero_violated",
    "WB.m4w.C137_zero_rows",
    "WB.m4w.C137_violated"
   ],
   "note": "False: the check has no lower bounds. If the first number is positive, row -1 is written to (C137_first_violated), and a zero makes a shift negative (C137_zero_violated); the full statement is C137_statement, its negation C137_violated. Right: all lists that describe a matrix (C137_read_partial), columns and rows that are too large (C137_column_partial, C137_row_partial), headers (C137_header). A row of zeros before one with entries cannot be described at all (C137_zero_rows)."
  },
  {
   "property": "C138",
   "status": "partial",
   "theorems": [
    "WB.m4w.C138_coin_violated",
    "WB.m4w.C138_coin_partial",
    "WB.m4w.C138_coin_bit",
    "WB.m4w.C138_word",
    "WB.m4w.C138_custom_partial",
    "WB.m4w.C138_empty_violated",
    "WB.m4w.C138_violated"
   ],
   "note": "False: m4ri_coin_flip compares with RAND_MAX/2, which is rounded down, so for no value of RAND_MAX is the bit evenly distributed (C138_coin_violated), and mzd_randomize_custom uses word -1 of a matrix without columns (C138_empty_violated); the full statement is C138_statement, its negation C138_violated. Right: the exact bias (C138_coin_partial), words with _MSC_VER (C138_word), matrices with columns (C138_custom_partial)."
  },
  {
   "property": "C139",
   "status": "proved",
   "theorems": [
    "WB.m4a.C139_fini",
    "WB.m4a.C139_live",
    "WB.m4a.C139_init",
    "WB.m4a.C139_twice",
    "WB.m4a.C139_apart",
    "WB.m4a.C139_program",
    "WB.m4a.C139_free"
   ],
   "note": "Unloading (C139_fini), the memory of the code book (C139_live, C139_apart), loading (C139_init, C139_twice), the blocks of the program (C139_program, C139_free). malloc never fails, one thread."
  },
  {
   "property": "C140",
   "status": "partial",
   "theorems": [
    "WB.m4w.C140_add_partial",
    "WB.m4w.C140_itself_violated",
    "WB.m4w.C140_assert",
    "WB.m4w.C140_index_partial",
    "WB.m4w.C140_negative_violated",
    "WB.m4w.C140_violated"
   ],
   "note": "False: a row that is added to itself loses the bits behind the last column, because they are restored from the row that was just cleared (C140_itself_violated), and groups of 32 bits and more can give a negative index (C140_negative_violated); the full statement is C140_statement, its negation C140_violated. Right: two different rows (C140_add_partial), up to 31 bits (C140_index_partial), the assertion (C140_assert)."
  }
 ]
}
