# Axioms of every theorem in MANIFEST.json

Output of `#print axioms`, written by `tools/mkaxioms.py`.
Only `propext`, `Classical.choice` and `Quot.sound` occur.

## C01

* propext, Classical.choice, Quot.sound: `WB.C01_MatMulVecM4`, `WB.C01_MatMulVecM8`, `WB.C01_MatMulVecM16`, `WB.C01_MatMulVecM32`, `WB.C01_MatMulVecM64`, `WB.C01_MatMulVecM128`, `WB.C01_MatMulVecM256`

## C02

* propext, Classical.choice, Quot.sound: `WB.C02_MatMulNumM4`, `WB.C02_MatMulNumM8`, `WB.C02_MatMulNumM16`, `WB.C02_MatMulNumM32`, `WB.C02_MatMulNumM64`

## C03

* propext, Classical.choice, Quot.sound: `WB.C03_MatMulMatM4`, `WB.C03_MatMulMatM8`, `WB.C03_MatMulMatM16`, `WB.C03_MatMulMatM32`, `WB.C03_MatMulMatM64`, `WB.C03_MatMulMatM128`, `WB.C03_MatMulMatM256`

## C04

* propext, Classical.choice, Quot.sound: `WB.C04_MattransM4`, `WB.C04_MattransM4_twice`, `WB.C04_MattransM8`, `WB.C04_MattransM8_twice`, `WB.C04_MattransM16`, `WB.C04_MattransM16_twice`, `WB.C04_MattransM32`, `WB.C04_MattransM32_twice`, `WB.C04_MattransM64`, `WB.C04_MattransM64_twice`, `WB.C04_MattransM128`, `WB.C04_MattransM128_twice`, `WB.C04_MattransM256`, `WB.C04_MattransM256_twice`

## C05

* propext, Classical.choice, Quot.sound: `WB.C05_MatAddMatM4`, `WB.C05_VecAddVecV4`, `WB.C05_MatAddMatM4_laws`, `WB.C05_MatAddMatM8`, `WB.C05_VecAddVecV8`, `WB.C05_MatAddMatM8_laws`, `WB.C05_MatAddMatM16`, `WB.C05_VecAddVecV16`, `WB.C05_MatAddMatM16_laws`, `WB.C05_MatAddMatM32`, `WB.C05_VecAddVecV32`, `WB.C05_MatAddMatM32_laws`, `WB.C05_MatAddMatM64`, `WB.C05_VecAddVecV64`, `WB.C05_MatAddMatM64_laws`, `WB.C05_MatAddMatM128`, `WB.C05_VecAddVecV128`, `WB.C05_MatAddMatM128_laws`, `WB.C05_MatAddMatM256`, `WB.C05_VecAddVecV256`, `WB.C05_MatAddMatM256_laws`

## C06

* propext, Classical.choice, Quot.sound: `WB.C06_initM4`, `WB.C06_initV4`, `WB.C06_identityM4`, `WB.C06_copyM4`, `WB.C06_initM8`, `WB.C06_initV8`, `WB.C06_identityM8`, `WB.C06_copyM8`, `WB.C06_initM16`, `WB.C06_initV16`, `WB.C06_identityM16`, `WB.C06_copyM16`, `WB.C06_initM32`, `WB.C06_initV32`, `WB.C06_identityM32`, `WB.C06_copyM32`, `WB.C06_initM64`, `WB.C06_initV64`, `WB.C06_identityM64`, `WB.C06_copyM64`, `WB.C06_initM128`, `WB.C06_initV128`, `WB.C06_identityM128`, `WB.C06_copyM128`, `WB.C06_initM256`, `WB.C06_initV256`, `WB.C06_identityM256`, `WB.C06_copyM256`

## C07

* propext, Quot.sound: `WB.C07_isequalM4`, `WB.C07_isequalM8`, `WB.C07_isequalM16`, `WB.C07_isequalM32`, `WB.C07_isequalM64`, `WB.C07_isequalM128`, `WB.C07_isequalM256`

* propext, Classical.choice, Quot.sound: `WB.C07_isequalM4_mat`, `WB.C07_isequalM8_mat`, `WB.C07_isequalM16_mat`, `WB.C07_isequalM32_mat`, `WB.C07_isequalM64_mat`, `WB.C07_isequalM128_mat`, `WB.C07_isequalM256_mat`

## C08

* propext: `WB.C08_isequalV4`, `WB.C08_isequalV8`, `WB.C08_isequalV16`, `WB.C08_isequalV32`, `WB.C08_isequalV64`

* propext, Quot.sound: `WB.C08_isequalV128`, `WB.C08_isequalV256_violated`, `WB.C08_isequalV256_partial`, `WB.C08_isequalV256_blind`

* propext, Classical.choice, Quot.sound: `WB.C08_isequalV256_zero`

## C09

* propext, Classical.choice, Quot.sound: `WB.C09_readbitM4`, `WB.C09_flipbitM4`, `WB.C09_setbitM4`, `WB.C09_readbitM8`, `WB.C09_flipbitM8`, `WB.C09_setbitM8`, `WB.C09_readbitM16`, `WB.C09_flipbitM16`, `WB.C09_setbitM16`, `WB.C09_readbitM32`, `WB.C09_flipbitM32`, `WB.C09_setbitM32`, `WB.C09_readbitM64`, `WB.C09_flipbitM64`, `WB.C09_setbitM64`, `WB.C09_readbitM128`, `WB.C09_flipbitM128`, `WB.C09_setbitM128`, `WB.C09_readbitM256`, `WB.C09_flipbitM256`, `WB.C09_setbitM256`

## C10

* propext, Classical.choice, Quot.sound: `WB.C10_bitM4`, `WB.C10_bitM8`, `WB.C10_bitM16`, `WB.C10_bitM32`, `WB.C10_bitM64`, `WB.C10_bitM128`, `WB.C10_bitM256`

## C11

* propext, Classical.choice, Quot.sound: `WB.C11_setbitM4`, `WB.C11_setbitM8`, `WB.C11_setbitM16`, `WB.C11_setbitM32`, `WB.C11_setbitM64`, `WB.C11_setbitM128`, `WB.C11_setbitM256`

## C12

* propext, Classical.choice, Quot.sound: `WB.C12_isinvertM4`, `WB.C12_isinvertM4_sound`, `WB.C12_isinvertM8`, `WB.C12_isinvertM16`, `WB.C12_isinvertM32`, `WB.C12_isinvertM64`, `WB.C12_isinvertM128`, `WB.C12_isinvertM256`

## C13

* propext, Classical.choice, Quot.sound: `WB.C13_invsM4`, `WB.C13_invsM8`, `WB.C13_invsM16`, `WB.C13_invsM32`, `WB.C13_invsM64`, `WB.C13_invsM128`, `WB.C13_invsM256`

## C14

* propext, Classical.choice, Quot.sound: `WB.C14_invsM4_singular`, `WB.C14_invsM8_singular`, `WB.C14_invsM16_singular`, `WB.C14_invsM32_singular`, `WB.C14_invsM64_singular`, `WB.C14_invsM128_singular`, `WB.C14_invsM256_singular`

## C15

* propext, Classical.choice, Quot.sound: `WB.C15_genMatpairM4`, `WB.C15_genMatpairM8`, `WB.C15_genMatpairM16`, `WB.C15_genMatpairM32`, `WB.C15_genMatpairM64`, `WB.C15_genMatpairM128`, `WB.C15_genMatpairM256`

## C16

* propext, Classical.choice, Quot.sound: `WB.C16_genMatpairM4`, `WB.C16_genMatpairM8`, `WB.C16_genMatpairM16`, `WB.C16_genMatpairM32`, `WB.C16_genMatpairM64`, `WB.C16_genMatpairM128`, `WB.C16_genMatpairM256`

## C17

* propext, Classical.choice, Quot.sound: `WB.C17_affineU4`, `WB.C17_affineU8`, `WB.C17_affineU16`, `WB.C17_affineU32`, `WB.C17_affineU64`, `WB.C17_affineU128`, `WB.C17_affineU128_inplace`

## C18

* propext, Classical.choice, Quot.sound: `WB.C18_genaffinepairM4`, `WB.C18_genaffinepairM8`, `WB.C18_genaffinepairM16`, `WB.C18_genaffinepairM32`, `WB.C18_genaffinepairM64`, `WB.C18_genaffinepairM128`

## C19

* propext, Classical.choice, Quot.sound: `WB.C19_affinemixM4`, `WB.C19_affinemixM8`, `WB.C19_affinemixM16`, `WB.C19_affinemixM32`, `WB.C19_affinemixM64`, `WB.C19_affinemixM128`

## C20

* propext, Classical.choice, Quot.sound: `WB.C20_MatrixcomM8to32`, `WB.C20_VectorcomV8to32`, `WB.C20_affinecomM8to32`, `WB.C20_MatrixcomM16to64`, `WB.C20_VectorcomV16to64`, `WB.C20_affinecomM16to64`, `WB.C20_MatrixcomM8to64`, `WB.C20_VectorcomV8to64`, `WB.C20_affinecomM8to64`, `WB.C20_MatrixcomM32to128`, `WB.C20_VectorcomV32to128`, `WB.C20_affinecomM32to128`, `WB.C20_MatrixcomM8to128`, `WB.C20_VectorcomV8to128`, `WB.C20_affinecomM8to128`, `WB.C20_MatrixcomM16to128`, `WB.C20_VectorcomV16to128`, `WB.C20_affinecomM16to128`

## C21

* propext, Classical.choice, Quot.sound: `WB.C21_affinecomM8to32`, `WB.C21_affinecomM16to64`, `WB.C21_affinecomM8to64`, `WB.C21_affinecomM32to128`, `WB.C21_affinecomM8to128`, `WB.C21_affinecomM16to128`

## C22

* propext, Classical.choice, Quot.sound: `WB.C22_VectorcomV8to32`, `WB.C22_MatrixcomM8to32`, `WB.C22_VectorcomV16to64`, `WB.C22_MatrixcomM16to64`, `WB.C22_VectorcomV8to64`, `WB.C22_MatrixcomM8to64`, `WB.C22_VectorcomV32to128`, `WB.C22_MatrixcomM32to128`, `WB.C22_VectorcomV8to128`, `WB.C22_MatrixcomM8to128`, `WB.C22_VectorcomV16to128`, `WB.C22_MatrixcomM16to128`

## C23

* propext, Classical.choice, Quot.sound: `WB.C23_xorU4`, `WB.C23_xorU8`, `WB.C23_xorU16`, `WB.C23_xorU32`, `WB.C23_xorU64`, `WB.C23_xorU128`, `WB.C23_xorU256`

## C24

* propext, Classical.choice, Quot.sound: `WB.C24_HWU4`, `WB.C24_HWU8`, `WB.C24_HWU16`, `WB.C24_HWU32`, `WB.C24_HWU64`, `WB.C24_HWU128`

## C25

* propext, Classical.choice, Quot.sound: `WB.C25_permuteQPR`

## C26

* propext, Classical.choice, Quot.sound: `WB.C26_distinct`, `WB.C26_every_value_once`, `WB.C26_no_smaller_period`

* propext, Quot.sound: `WB.C26_period`

## C27

* propext, Classical.choice, Quot.sound: `WB.C27_InitRandom`, `WB.C27_InitRandom_onto`

## C28

* propext, Classical.choice, Quot.sound: `WB.C28_randM32`, `WB.C28_randM64`, `WB.C28_randM128_words`, `WB.C28_randM128`, `WB.C28_randM256_words`, `WB.C28_randM256`

## C29

* propext, Classical.choice, Quot.sound: `WB.C29_randM4`, `WB.C29_genMatpairM4`, `WB.C29_randM8`, `WB.C29_genMatpairM8`, `WB.C29_randM16`, `WB.C29_genMatpairM16`, `WB.C29_randM32`, `WB.C29_genMatpairM32`, `WB.C29_randM64`, `WB.C29_genMatpairM64`, `WB.C29_randM128`, `WB.C29_randV128`, `WB.C29_genMatpairM128`, `WB.C29_randM256`, `WB.C29_randV256`, `WB.C29_genMatpairM256`, `WB.C29_SetRandSeed_genMatpairM8`, `WB.C29_SetRandSeed_randM4`, `WB.C29_SetRandSeed_genMatpairM4`, `WB.C29_genaffinepairM4`, `WB.C29_SetRandSeed_genaffinepairM4`, `WB.C29_SetRandSeed_randM8`, `WB.C29_genaffinepairM8`, `WB.C29_SetRandSeed_genaffinepairM8`, `WB.C29_SetRandSeed_randM16`, `WB.C29_SetRandSeed_genMatpairM16`, `WB.C29_genaffinepairM16`, `WB.C29_SetRandSeed_genaffinepairM16`, `WB.C29_SetRandSeed_randM32`, `WB.C29_SetRandSeed_genMatpairM32`, `WB.C29_genaffinepairM32`, `WB.C29_SetRandSeed_genaffinepairM32`, `WB.C29_SetRandSeed_randM64`, `WB.C29_SetRandSeed_genMatpairM64`, `WB.C29_genaffinepairM64`, `WB.C29_SetRandSeed_genaffinepairM64`, `WB.C29_SetRandSeed_randM128`, `WB.C29_SetRandSeed_randV128`, `WB.C29_SetRandSeed_genMatpairM128`, `WB.C29_genaffinepairM128`, `WB.C29_SetRandSeed_genaffinepairM128`, `WB.C29_SetRandSeed_randM256`, `WB.C29_SetRandSeed_randV256`, `WB.C29_SetRandSeed_genMatpairM256`

* propext, Quot.sound: `WB.C29_randV4`, `WB.C29_randV8`, `WB.C29_randV16`, `WB.C29_randV32`, `WB.C29_SetRandSeed_randV4`, `WB.C29_SetRandSeed_randV8`, `WB.C29_SetRandSeed_randV16`, `WB.C29_SetRandSeed_randV32`

## C30

* propext, Classical.choice, Quot.sound: `WB.C30_randM4_violated`, `WB.C30_randM4_partial`, `WB.C30_randV4_violated`, `WB.C30_randV4_partial`, `WB.C30_randM8_violated`, `WB.C30_randM8_partial`, `WB.C30_randV8_violated`, `WB.C30_randV8_partial`, `WB.C30_randM16_violated`, `WB.C30_randM16_partial`, `WB.C30_randV16_violated`, `WB.C30_randV16_partial`, `WB.C30_randM32_violated`, `WB.C30_randM32_partial`, `WB.C30_randV32_violated`, `WB.C30_randV32_partial`, `WB.C30_randM64_violated`, `WB.C30_randM64_partial`, `WB.C30_randM128_violated`, `WB.C30_randM128_partial`, `WB.C30_randV128_violated`, `WB.C30_randV128_partial`, `WB.C30_randM256_violated`, `WB.C30_randM256_partial`, `WB.C30_randV256_violated`, `WB.C30_randV256_partial`

* propext, Quot.sound: `WB.C30_collision`

## C31

* propext, Classical.choice, Quot.sound: `WB.C31_calls`, `WB.C31_consecutive`

## C32

* propext, Classical.choice, Quot.sound: `WB.C32_randV64_violated`, `WB.C32_randV64_fresh_violated`, `WB.C32_randV64_partial`

## C33

* propext, Classical.choice, Quot.sound: `WB.C33_initM4`, `WB.C33_identityM4`, `WB.C33_randM4`, `WB.C33_invsM4`, `WB.C33_MattransM4`, `WB.C33_MatMulMatM4`, `WB.C33_MatMulVecM4`, `WB.C33_MatMulNumM4`, `WB.C33_genMatpairM4`, `WB.C33_genaffinepairM4`

* propext, Quot.sound: `WB.C33_randV4`

## C34

* propext, Classical.choice, Quot.sound: `WB.C34_isinvertM4_dirty`, `WB.C34_MattransM4_dirty`, `WB.C34_MatMulMatM4_dirty`, `WB.C34_MattransM4_exact`, `WB.C34_MatMulMatM4_exact`, `WB.C34_isinvertM4_exact`, `WB.C34_MatMulVecM4_any`, `WB.C34_invsM4_any`

## C35

* propext, Classical.choice, Quot.sound: `WB.C35_mul_assocM4`, `WB.C35_mul_addM4`, `WB.C35_add_mulM4`, `WB.C35_oneM4`, `WB.C35_transposeM4`, `WB.C35_invsM4`, `WB.C35_mul_assocM8`, `WB.C35_mul_addM8`, `WB.C35_add_mulM8`, `WB.C35_oneM8`, `WB.C35_transposeM8`, `WB.C35_invsM8`, `WB.C35_mul_assocM16`, `WB.C35_mul_addM16`, `WB.C35_add_mulM16`, `WB.C35_oneM16`, `WB.C35_transposeM16`, `WB.C35_invsM16`, `WB.C35_mul_assocM32`, `WB.C35_mul_addM32`, `WB.C35_add_mulM32`, `WB.C35_oneM32`, `WB.C35_transposeM32`, `WB.C35_invsM32`, `WB.C35_mul_assocM64`, `WB.C35_mul_addM64`, `WB.C35_add_mulM64`, `WB.C35_oneM64`, `WB.C35_transposeM64`, `WB.C35_invsM64`, `WB.C35_mul_assocM128`, `WB.C35_mul_addM128`, `WB.C35_add_mulM128`, `WB.C35_oneM128`, `WB.C35_transposeM128`, `WB.C35_invsM128`, `WB.C35_mul_assocM256`, `WB.C35_mul_addM256`, `WB.C35_add_mulM256`, `WB.C35_oneM256`, `WB.C35_transposeM256`, `WB.C35_invsM256`

## C36

* propext, Classical.choice, Quot.sound: `WB.C36_printM4_frame`, `WB.C36_printV4_frame`, `WB.C36_printbitM4_frame`, `WB.C36_printM8_frame`, `WB.C36_printV8_frame`, `WB.C36_printbitM8_frame`, `WB.C36_printM16_frame`, `WB.C36_printV16_frame`, `WB.C36_printbitM16_frame`, `WB.C36_printM32_frame`, `WB.C36_printV32_frame`, `WB.C36_printbitM32_frame`, `WB.C36_printM64_frame`, `WB.C36_printV64_frame`, `WB.C36_printbitM64_frame`, `WB.C36_printM128_frame`, `WB.C36_printV128_frame`, `WB.C36_printbitM128_frame`, `WB.C36_printM256_frame`, `WB.C36_printV256_frame`, `WB.C36_printU8_frame`, `WB.C36_printU16_frame`, `WB.C36_printU32_frame`, `WB.C36_printU256_frame`, `WB.C36_inplace4`, `WB.C36_inplace8`, `WB.C36_inplace16`, `WB.C36_inplace32`, `WB.C36_inplace64`, `WB.C36_inplace128`, `WB.C36_inplace256`

* propext, Quot.sound: `WB.C36_others4`, `WB.C36_others8`, `WB.C36_others16`, `WB.C36_others32`, `WB.C36_others64`, `WB.C36_others128`, `WB.C36_others256`

## C37

* propext, Classical.choice, Quot.sound: `WB.C37_printbitM4`, `WB.C37_printbitM8`, `WB.C37_printbitM16`, `WB.C37_printbitM32`, `WB.C37_printbitM64`, `WB.C37_printbitM128`, `WB.C37_bitText_injective`, `WB.C37_printbitM4_injective`, `WB.C37_printbitM8_injective`, `WB.C37_printbitM16_injective`, `WB.C37_printbitM32_injective`, `WB.C37_printbitM64_injective`, `WB.C37_printbitM128_injective`

## C38

* propext, Classical.choice, Quot.sound: `WB.C38_hexWord`, `WB.C38_printM4`, `WB.C38_printV4`, `WB.C38_printM4_injective`, `WB.C38_printV4_injective`, `WB.C38_printM8`, `WB.C38_printV8`, `WB.C38_printM8_injective`, `WB.C38_printV8_injective`, `WB.C38_printM16`, `WB.C38_printV16`, `WB.C38_printM16_injective`, `WB.C38_printV16_injective`, `WB.C38_printM32`, `WB.C38_printV32`, `WB.C38_printM32_injective`, `WB.C38_printV32_injective`, `WB.C38_printM64`, `WB.C38_printV64`, `WB.C38_printM64_injective`, `WB.C38_printV64_injective`, `WB.C38_printM128`, `WB.C38_printV128`, `WB.C38_printM128_injective`, `WB.C38_printV128_injective`, `WB.C38_printM256`, `WB.C38_printV256`, `WB.C38_printM256_injective`, `WB.C38_printV256_injective`

## C39

* propext, Classical.choice, Quot.sound: `WB.C39_printU8`, `WB.C39_printU16`, `WB.C39_printU32`, `WB.C39_printU256`, `WB.C39_printU64_violated`, `WB.C39_printU128_violated`, `WB.C39_printU_partial`

## C40

* propext: `WB.C40_violated`, `WB.C40_partial`, `WB.C40_missing_violated`

* none: `WB.C40_unique`

## C41

* propext, Classical.choice, Quot.sound: `WB.C41_programs4`, `WB.C41_programs8`, `WB.C41_programs16`, `WB.C41_programs32`, `WB.C41_programs64`, `WB.C41_programs128`, `WB.C41_programs256`

## C42

* propext, Classical.choice, Quot.sound: `WB.C42_genMatpairM4`, `WB.C42_SetRandSeed_genMatpairM4`, `WB.C42_genMatpairM8`, `WB.C42_SetRandSeed_genMatpairM8`, `WB.C42_genMatpairM16`, `WB.C42_SetRandSeed_genMatpairM16`, `WB.C42_genMatpairM32`, `WB.C42_SetRandSeed_genMatpairM32`, `WB.C42_genMatpairM64`, `WB.C42_SetRandSeed_genMatpairM64`, `WB.C42_genMatpairM128`, `WB.C42_SetRandSeed_genMatpairM128`, `WB.C42_genMatpairM256`, `WB.C42_SetRandSeed_genMatpairM256`

## C43

* propext, Classical.choice, Quot.sound: `WB.C43_sm4_ecb_encrypt`

## C44

* propext, Quot.sound: `WB.C44_sm4_inverse`

* propext, Classical.choice, Quot.sound: `WB.C44_sm4_ecb_decrypt`, `WB.C44_sm4_cbc_encrypt`, `WB.C44_sm4_cbc_roundtrip`, `WB.C44_sm4_ecb_roundtrip`

## C45

* propext, Classical.choice, Quot.sound: `WB.C45_wbsm4_encrypt`, `WB.C45_wbsm4_encodings_invisible`

## C46

* propext, Classical.choice, Quot.sound: `WB.C46_setkey_dec_violated`, `WB.C46_violated`, `WB.C46_setkey_enc_partial`

* propext, Quot.sound: `WB.C46_cbc_with_recorded_mode_violated`

## C47

* propext, Classical.choice, Quot.sound: `WB.C47_sm4_ecb_needs_whole_blocks`, `WB.C47_sm4_ecb_overruns`

## C48

* propext, Classical.choice, Quot.sound: `WB.C48_gMul`, `WB.C48_poly_faithful`, `WB.C48_aes_sbox`, `WB.C48_sm4_sbox`

* propext, Quot.sound: `WB.C48_initialize_terminates`, `WB.C48_initialize_eq_table`

## C49

* propext, Classical.choice, Quot.sound: `WB.C49_expandKey`, `WB.C49_transformations`, `WB.C49_aes_128_encrypt`

## C50

* propext, Classical.choice, Quot.sound: `WB.C50_wbaes_encrypt`, `WB.C50_mixColumns_table`, `WB.C50_wbaes_encodings_invisible`

## C51

* propext, Classical.choice, Quot.sound: `WB.C51_repeated_calls`, `WB.C51_repeated_calls_partial`, `WB.C51_other_calls_violated`, `WB.C51_violated`

## C52

* propext, Classical.choice, Quot.sound: `WB.C52_computeTables_violated`, `WB.C52_violated`, `WB.C52_computeTables_partial`

## C53

* propext, Classical.choice, Quot.sound: `WB.C53_tables_reveal_key`, `WB.C53_subBytes_shiftRows_injective`, `WB.C53_TBoxes_not_randomised`, `WB.C53_last_round_determines_key`, `WB.C53_states_in_the_clear`

## C54

* propext, Quot.sound: `WB.C54_isequalM4`, `WB.C54_isequalM8`, `WB.C54_isequalM16`, `WB.C54_isequalM32`, `WB.C54_isequalM64`, `WB.C54_isequalM128`, `WB.C54_isequalV128`

* none: `WB.C54_isequalV4`, `WB.C54_isequalV8`, `WB.C54_isequalV16`, `WB.C54_isequalV32`, `WB.C54_isequalV64`

* propext, Classical.choice, Quot.sound: `WB.C54_MattransM4`, `WB.C54_MatMulMatM4`, `WB.C54_affinemixM4`, `WB.C54_genMatpairM4`, `WB.C54_genaffinepairM4`, `WB.C54_old_MattransM4_any`, `WB.C54_old_MatMulMatM4_any`, `WB.C54_MattransM4_differs`, `WB.C54_MatMulMatM4_differs`, `WB.C54_MattransM8`, `WB.C54_MatMulMatM8`, `WB.C54_affinemixM8`, `WB.C54_genMatpairM8`, `WB.C54_genaffinepairM8`, `WB.C54_MattransM16`, `WB.C54_MatMulMatM16`, `WB.C54_affinemixM16`, `WB.C54_genMatpairM16`, `WB.C54_genaffinepairM16`, `WB.C54_MattransM32`, `WB.C54_MatMulMatM32`, `WB.C54_affinemixM32`, `WB.C54_genMatpairM32`, `WB.C54_genaffinepairM32`, `WB.C54_randV32_differs`, `WB.C54_old_randV32_seeded`, `WB.C54_MattransM64`, `WB.C54_MatMulMatM64`, `WB.C54_affinemixM64`, `WB.C54_genMatpairM64`, `WB.C54_genaffinepairM64`, `WB.C54_randV64_differs`, `WB.C54_old_randV64_seeded`, `WB.C54_old_randV64_uses_seed`, `WB.C54_MattransM128`, `WB.C54_MatMulMatM128`, `WB.C54_affinemixM128`, `WB.C54_genMatpairM128`, `WB.C54_genaffinepairM128`, `WB.C54_randV128_differs`, `WB.C54_old_randV128_seeded`

## C55

* propext, Classical.choice, Quot.sound: `WB.C55_wbsm4_encrypt`, `WB.C55_wbsm4_versions_agree`, `WB.C55_wbaes_encrypt`, `WB.C55_wbaes_same_tables`, `WB.C55_wbaes_tables_reveal_key`

## C56

* propext, Classical.choice, Quot.sound: `WB.C56_InvTMatM4`, `WB.C56_InvTMatM4_overflow`, `WB.C56_InvTMatM8`, `WB.C56_InvTMatM8_overflow`, `WB.C56_InvTMatM16`, `WB.C56_InvTMatM16_overflow`, `WB.C56_InvTMatM32`, `WB.C56_InvTMatM32_overflow`, `WB.C56_InvTMatM64`, `WB.C56_InvTMatM64_overflow`, `WB.C56_InvTMatM128`, `WB.C56_InvTMatM128_overflow`, `WB.C56_InvTMatM256`, `WB.C56_InvTMatM256_overflow`

## C57

* propext, Classical.choice, Quot.sound: `WB.C57_lowM4`, `WB.C57_upM4`, `WB.C57_InvTMatM4`, `WB.C57_InvTMatM4_overflow`, `WB.C57_lowM8`, `WB.C57_upM8`, `WB.C57_InvTMatM8`, `WB.C57_InvTMatM8_overflow`, `WB.C57_lowM16`, `WB.C57_upM16`, `WB.C57_InvTMatM16`, `WB.C57_InvTMatM16_overflow`, `WB.C57_lowM32`, `WB.C57_upM32`, `WB.C57_InvTMatM32`, `WB.C57_InvTMatM32_overflow`, `WB.C57_lowM64`, `WB.C57_upM64`, `WB.C57_InvTMatM64`, `WB.C57_InvTMatM64_overflow`, `WB.C57_lowM128`, `WB.C57_upM128`, `WB.C57_InvTMatM128`, `WB.C57_InvTMatM128_overflow`, `WB.C57_lowM256`, `WB.C57_upM256_partial`, `WB.C57_upM256_flat_partial`, `WB.C57_upM256_violated`, `WB.C57_InvTMatM256_flat_partial`, `WB.C57_InvTMatM256_partial`, `WB.C57_InvTMatM256_violated`, `WB.C57_InvTMatM256_overflow`

## C58

* propext, Classical.choice, Quot.sound: `WB.C58_InvTMatM4`, `WB.C58_MatrixpairM4`, `WB.C58_InvTMatM4_terminates`, `WB.C58_InvTMatM4_may_diverge`, `WB.C58_InvTMatM8`, `WB.C58_MatrixpairM8`, `WB.C58_InvTMatM8_terminates`, `WB.C58_InvTMatM8_may_diverge`, `WB.C58_InvTMatM16`, `WB.C58_MatrixpairM16`, `WB.C58_InvTMatM16_terminates`, `WB.C58_InvTMatM16_may_diverge`, `WB.C58_InvTMatM32`, `WB.C58_MatrixpairM32`, `WB.C58_InvTMatM32_terminates`, `WB.C58_InvTMatM32_may_diverge`, `WB.C58_InvTMatM64`, `WB.C58_MatrixpairM64`, `WB.C58_InvTMatM64_terminates`, `WB.C58_InvTMatM64_may_diverge`, `WB.C58_InvTMatM128`, `WB.C58_MatrixpairM128`, `WB.C58_InvTMatM128_terminates`, `WB.C58_InvTMatM128_may_diverge`, `WB.C58_InvTMatM256`, `WB.C58_MatrixpairM256`, `WB.C58_InvTMatM256_terminates`, `WB.C58_InvTMatM256_may_diverge`

## C59

* propext, Classical.choice, Quot.sound: `WB.C59_TrailM8`, `WB.C59_InvTMatM8`, `WB.C59_MatrixpairM8`, `WB.C59_InvSMatM8`, `WB.C59_M8_overflow`, `WB.C59_TrailM16`, `WB.C59_InvTMatM16`, `WB.C59_MatrixpairM16`, `WB.C59_InvSMatM16`, `WB.C59_M16_overflow`, `WB.C59_TrailM32`, `WB.C59_InvTMatM32`, `WB.C59_MatrixpairM32`, `WB.C59_InvSMatM32`, `WB.C59_M32_overflow`, `WB.C59_TrailM64`, `WB.C59_InvTMatM64`, `WB.C59_MatrixpairM64`, `WB.C59_InvSMatM64`, `WB.C59_M64_overflow`, `WB.C59_TrailM128`, `WB.C59_InvTMatM128_partial`, `WB.C59_InvTMatM128_violated`, `WB.C59_MatrixpairM128_violated`, `WB.C59_InvSMatM128_violated`, `WB.C59_M128_overflow`

## C60

* propext, Classical.choice, Quot.sound: `WB.C60_accuracy_little`, `WB.C60_accuracy_big`

## C61

* propext, Classical.choice, Quot.sound: `WB.C61_randM4`, `WB.C61_genMatpairM4`, `WB.C61_randM8`, `WB.C61_genMatpairM8`, `WB.C61_missed_M8`, `WB.C61_randM16`, `WB.C61_genMatpairM16`, `WB.C61_missed_M16`, `WB.C61_randM32`, `WB.C61_genMatpairM32`, `WB.C61_missed_M32`, `WB.C61_randM64`, `WB.C61_genMatpairM64`, `WB.C61_missed_M64`, `WB.C61_randM128`, `WB.C61_genMatpairM128`, `WB.C61_missed_M128`, `WB.C61_randM256`, `WB.C61_genMatpairM256`, `WB.C61_missed_M256`

## C62

* propext, Classical.choice, Quot.sound: `WB.C62_randM32`, `WB.C62_randM32_same_second`, `WB.C62_randM64`, `WB.C62_randM64_same_second`, `WB.C62_randM128`, `WB.C62_randM128_same_second`, `WB.C62_randM256`, `WB.C62_randM256_same_second`

## C63

* propext, Classical.choice, Quot.sound: `WB.C63_getrandbit`, `WB.C63_getrandbit_first`, `WB.C63_sequence`, `WB.C63_calls`, `WB.C63_bound_attained`

## C64

* propext, Classical.choice, Quot.sound: `WB.C64_RandbitMatM4`, `WB.C64_InvTMatM4`, `WB.C64_InvTMatM4_never`, `WB.C64_InvTMatM4_clean`, `WB.C64_stack_M4`, `WB.C64_RandbitMatM8`, `WB.C64_InvTMatM8`, `WB.C64_stack_M8`, `WB.C64_RandbitMatM16`, `WB.C64_InvTMatM16`, `WB.C64_stack_M16`, `WB.C64_RandbitMatM32`, `WB.C64_InvTMatM32`, `WB.C64_stack_M32`, `WB.C64_RandbitMatM64`, `WB.C64_InvTMatM64`, `WB.C64_stack_M64`, `WB.C64_RandbitMatM128`, `WB.C64_InvTMatM128`, `WB.C64_stack_M128`, `WB.C64_RandbitMatM256`, `WB.C64_InvTMatM256`, `WB.C64_stack_M256`

## C65

* propext, Classical.choice, Quot.sound: `WB.C65_InitVecFromBit`, `WB.C65_getDigitalFromVec`, `WB.C65_getDigital64FromVec`, `WB.C65_getDigital128FromVec`, `WB.C65_get32FromVec`, `WB.C65_get64FromVec`, `WB.C65_get128FromVec`, `WB.C65_roundTrip`, `WB.C65_ApplyMatToU8`, `WB.C65_ApplyMatToU16`, `WB.C65_ApplyMatToU32`, `WB.C65_ApplyMatToU64`, `WB.C65_ApplyMatToU128`, `WB.C65_AddMatToU32`, `WB.C65_AddMatToU64`, `WB.C65_AddMatToU128`, `WB.C65_GenMatAddU`, `WB.C65_GenIndMatrix`, `WB.C65_GenZeroVec`, `WB.C65_GenMatGf2Mul`, `WB.C65_GenMatGf2Add`, `WB.C65_GenMatGf2Inv`, `WB.C65_GenMatGf2Stack`, `WB.C65_GenMatGf2Concat`, `WB.C65_GenMatGf2Diag`

* propext, Quot.sound: `WB.C65_GenMatGf2Copy`

## C66

* propext, Classical.choice, Quot.sound: `WB.C66_MatGf2Mul`, `WB.C66_MatGf2Add`, `WB.C66_MatGf2Stack`, `WB.C66_MatGf2Concat`, `WB.C66_MatGf2Inv`, `WB.C66_MatGf2Transpose`, `WB.C66_MatGf2Copy_partial`, `WB.C66_MatGf2Diag_partial`, `WB.C66_MatGf2Diag_violated`, `WB.C66_AddMatToU32_violated`, `WB.C66_AddMatToU64_violated`, `WB.C66_GenMatAddU_violated`, `WB.C66_ApplyMatToU8`, `WB.C66_ApplyMatToU16`, `WB.C66_ApplyMatToU32`, `WB.C66_ApplyMatToU64`, `WB.C66_ApplyMatToU128`, `WB.C66_AddMatToU128`

* propext, Quot.sound: `WB.C66_MatGf2Copy_violated`

## C67

* propext, Classical.choice, Quot.sound: `WB.C67_IsMatGf2Invertible`, `WB.C67_IsMatGf2Invertible_empty`, `WB.C67_GenInvertibleMatGf2`, `WB.C67_GenInvertibleMatGf2_diverges`, `WB.C67_GenInvertibleMatGf2_rect`, `WB.C67_GenInvertibleMatGf2_sound`

* propext, Quot.sound: `WB.C67_IsMatGf2Invertible_rect`

## C68

* propext, Classical.choice, Quot.sound: `WB.C68_MatGf2Set_partial`, `WB.C68_InitMatGf2ByValueArray_partial`, `WB.C68_InitMatGf2ByValueArray_tall_violated`, `WB.C68_InitMatGf2ByValueArray_wide_violated`, `WB.C68_InitMatGf2ByValueArray_wide_wrong_violated`, `WB.C68_InitMatrixFromBitArray`

* propext, Quot.sound: `WB.C68_MatGf2Set_violated`

## C69

* propext, Quot.sound: `WB.C69_MatGf2Cmp`

* propext, Classical.choice, Quot.sound: `WB.C69_MatGf2Cmp_sizes`, `WB.C69_roundTrip`, `WB.C69_DumpMatGf2`, `WB.C69_DumpMatGf2Line`

## C70

* propext, Classical.choice, Quot.sound: `WB.C70_ApplyAffineToU8`, `WB.C70_ApplyAffineToU16`, `WB.C70_ApplyAffineToU32`, `WB.C70_ApplyAffineTransform`, `WB.C70_ApplyAffineTransform_vector`, `WB.C70_GenRandomAffineTransform`, `WB.C70_inverse32`, `WB.C70_GenIndAffineTransform`, `WB.C70_AffineTransformFree`, `WB.C70_roundTrip`

## C71

* propext, Classical.choice, Quot.sound: `WB.m4ri.C71_encrypt`, `WB.m4ri.C71_same_as_WBMatrix`, `WB.m4ri.C71_main`

## C72

* propext, Classical.choice, Quot.sound: `WB.m4ri.C72_gen_tables`, `WB.m4ri.C72_enc`, `WB.m4ri.C72_main_leak_violated`

## C73

* propext, Classical.choice, Quot.sound: `WB.m4ri.C73_encrypt`, `WB.m4ri.C73_mixColumns_table`, `WB.m4ri.C73_same_as_WBMatrix`

## C74

* propext, Classical.choice, Quot.sound: `WB.m4ri.C74_main_tables`, `WB.m4ri.C74_main_partial`, `WB.m4ri.C74_other_counts_violated`, `WB.m4ri.C74_iso_violated`, `WB.m4ri.C74_violated`

## C75

* propext, Classical.choice, Quot.sound: `WB.m4ri.C75_computeTables_violated`, `WB.m4ri.C75_main_violated`, `WB.m4ri.C75_violated`

## C76

* propext, Classical.choice, Quot.sound: `WB.ntl.C76_RandMat_init`, `WB.ntl.C76_RandMat_init_any`, `WB.ntl.C76_InvTMat`, `WB.ntl.C76_random`, `WB.ntl.C76_genRandomInvMatrix`, `WB.ntl.C76_genRandomAffineMatrix`, `WB.ntl.C76_genRandomAffineMatrix2`, `WB.ntl.C76_genRandomAffineAugmentedMatrix`, `WB.ntl.C76_more_attempts`, `WB.ntl.C76_more_attempts_affine`

* propext, Quot.sound: `WB.ntl.C76_initVec`

## C77

* propext, Classical.choice, Quot.sound: `WB.ntl.C77_range_partial`, `WB.ntl.C77_affine_range_partial`, `WB.ntl.C77_inv_range_partial`, `WB.ntl.C77_identity_violated`, `WB.ntl.C77_small_sizes_violated`, `WB.ntl.C77_large_sizes`, `WB.ntl.C77_violated`

## C78

* propext, Classical.choice, Quot.sound: `WB.ntl.C78_initVecFromBit`, `WB.ntl.C78_initMatrixFromBit`, `WB.ntl.C78_getDigitalFromVec`, `WB.ntl.C78_roundtrip`, `WB.ntl.C78_get32FromVec`, `WB.ntl.C78_get8FromVec`, `WB.ntl.C78_getVecFrom32`, `WB.ntl.C78_augmented`, `WB.ntl.C78_combineDiagMat`, `WB.ntl.C78_applyAffine`, `WB.ntl.C78_applyMat`, `WB.ntl.C78_addVec`, `WB.ntl.C78_neutral`

## C79

* propext, Classical.choice, Quot.sound: `WB.ntl.C79_stream_violated`, `WB.ntl.C79_cout_partial`, `WB.ntl.C79_unset_inverse_violated`, `WB.ntl.C79_unset_inverse_reachable`, `WB.ntl.C79_violated`

## C80

* propext, Classical.choice, Quot.sound: `WB.ntl.C80_encrypt`, `WB.ntl.C80_generation_can_return`, `WB.ntl.C80_same_as_WBMatrix`, `WB.ntl.C80_main`

## C81

* propext, Classical.choice, Quot.sound: `WB.ntl.C81_encrypt`, `WB.ntl.C81_mixColumns_table`, `WB.ntl.C81_generation_can_return`, `WB.ntl.C81_same_as_WBMatrix`

## C82

* propext, Classical.choice, Quot.sound: `WB.ntl.C82_main_tables`, `WB.ntl.C82_main_can_return`, `WB.ntl.C82_main_partial`, `WB.ntl.C82_other_counts_violated`, `WB.ntl.C82_violated`

## C83

* propext, Classical.choice, Quot.sound: `WB.cmp.github6.C83_determinant`, `WB.cmp.github6.C83_determinant_returns`, `WB.cmp.github6.C83_determinant_faults`, `WB.cmp.github6.C83_cofactor_partial`, `WB.cmp.github6.C83_cofactor_returns`, `WB.cmp.github6.C83_singular_violated`, `WB.cmp.github6.C83_order_one_violated`, `WB.cmp.github6.C83_violated`, `WB.cmp.github6.C83_mod2`, `WB.cmp.github6.C83_other_matrices`, `WB.cmp.github6.C83_main`

## C84

* propext, Classical.choice, Quot.sound: `WB.cmp.github6.C84_determinant_violated`, `WB.cmp.github6.C84_cofactor_violated`, `WB.cmp.github6.C84_order_one_violated`, `WB.cmp.github6.C84_main_violated`, `WB.cmp.github6.C84_violated`

## C85

* propext, Classical.choice, Quot.sound: `WB.cmp.github2.C85_det`, `WB.cmp.github2.C85_det_too_large`, `WB.cmp.github2.C85_inverse_partial`, `WB.cmp.github2.C85_singular`, `WB.cmp.github2.C85_order_one_violated`, `WB.cmp.github2.C85_violated`, `WB.cmp.github2.C85_test`

## C86

* propext, Classical.choice, Quot.sound: `WB.cmp.github3.C86_determinant`, `WB.cmp.github3.C86_mulmat`, `WB.cmp.github3.C86_adjugate_partial`, `WB.cmp.github3.C86_inverse_partial`, `WB.cmp.github3.C86_not_square`, `WB.cmp.github3.C86_adjugate_one_violated`, `WB.cmp.github3.C86_inverse_one_violated`, `WB.cmp.github3.C86_adjugate_zero_violated`, `WB.cmp.github3.C86_violated`

## C87

* propext, Classical.choice, Quot.sound: `WB.cmp.github3.C87_adjugate_violated`, `WB.cmp.github3.C87_inverse_violated`, `WB.cmp.github3.C87_inverse_one_partial`, `WB.cmp.github3.C87_violated`, `WB.cmp.github3.C87_main_violated`

## C88

* propext, Classical.choice, Quot.sound: `WB.cmp.github4.C88_init`, `WB.cmp.github4.C88_inverse_partial`, `WB.cmp.github4.C88_outcome`, `WB.cmp.github4.C88_singular`, `WB.cmp.github4.C88_step`, `WB.cmp.github4.C88_repeated`, `WB.cmp.github4.C88_bits_violated`, `WB.cmp.github4.C88_violated`

## C89

* propext, Classical.choice, Quot.sound: `WB.cmp.github7.C89_reverse_partial`, `WB.cmp.github7.C89_outcome`, `WB.cmp.github7.C89_singular`, `WB.cmp.github7.C89_main_element`, `WB.cmp.github7.C89_pivot`, `WB.cmp.github7.C89_zero_pivot`, `WB.cmp.github7.C89_permutation_violated`, `WB.cmp.github7.C89_violated`, `WB.cmp.github7.C89_second_call`, `WB.cmp.github7.C89_repeated_violated`, `WB.cmp.github7.C89_main_violated`

## C90

* propext, Classical.choice, Quot.sound: `WB.cmp.github5.C90_bounds`, `WB.cmp.github5.C90_last_column_violated`, `WB.cmp.github5.C90_order_two_partial`, `WB.cmp.github5.C90_order_one_violated`, `WB.cmp.github5.C90_singular_violated`, `WB.cmp.github5.C90_violated`, `WB.cmp.github5.C90_gf2_violated`

* propext, Quot.sound: `WB.cmp.github5.C90_uninitialised_violated`

## C91

* propext, Classical.choice, Quot.sound: `WB.sp.C91_order_partial`, `WB.sp.C91_emptied_violated`, `WB.sp.C91_missing`, `WB.sp.C91_order_violated`, `WB.sp.C91_violated`

## C92

* propext, Classical.choice, Quot.sound: `WB.sp.C92_square_partial`, `WB.sp.C92_tall_violated`, `WB.sp.C92_wide`, `WB.sp.C92_wide_violated`, `WB.sp.C92_violated`, `WB.sp.C92_computeRank_violated`, `WB.sp.C92_prob_full`, `WB.sp.C92_prob_pred`, `WB.sp.C92_test`, `WB.sp.C92_short`

## C93

* propext, Classical.choice, Quot.sound: `WB.sp.C93_linear_complexity`, `WB.sp.C93_poly`, `WB.sp.C93_test`, `WB.sp.C93_short`

* propext: `WB.sp.C93_empty`, `WB.sp.C93_poly_violated`

## C94

* propext, Classical.choice, Quot.sound: `WB.sp.C94_whole_partial`, `WB.sp.C94_whole_range`, `WB.sp.C94_zero_whole_violated`, `WB.sp.C94_zero_violated`, `WB.sp.C94_violated`

## C95

* propext, Classical.choice, Quot.sound: `WB.sp.C95_monobit`, `WB.sp.C95_monobit_empty`, `WB.sp.C95_block`, `WB.sp.C95_block_short`, `WB.sp.C95_balanced_violated`, `WB.sp.C95_runs`, `WB.sp.C95_runs_equal`, `WB.sp.C95_longest_8`, `WB.sp.C95_longest_128`, `WB.sp.C95_longest_10000`, `WB.sp.C95_longest_short`

## C96

* propext, Classical.choice, Quot.sound: `WB.sp.C96_nonneg`, `WB.sp.C96_zero`, `WB.sp.C96_serial_partial`, `WB.sp.C96_serial_violated`, `WB.sp.C96_serial_length`, `WB.sp.C96_entropy_nonneg`, `WB.sp.C96_entropy_partial`, `WB.sp.C96_entropy_violated`, `WB.sp.C96_cycle`, `WB.sp.C96_violated`, `WB.sp.C96_cycle_entropy`

## C97

* propext, Classical.choice, Quot.sound: `WB.sp.C97_templates`, `WB.sp.C97_choice`, `WB.sp.C97_count_partial`, `WB.sp.C97_count_violated`, `WB.sp.C97_statement_violated`, `WB.sp.C97_p_partial`, `WB.sp.C97_zero`, `WB.sp.C97_absent_violated`, `WB.sp.C97_constant_violated`, `WB.sp.C97_probs`, `WB.sp.C97_overlapping`, `WB.sp.C97_overlapping_short`

## C98

* propext, Classical.choice, Quot.sound: `WB.sp.C98_Phi`, `WB.sp.C98_cusum`, `WB.sp.C98_cusum_exists`, `WB.sp.C98_cusum_empty`, `WB.sp.C98_complement`, `WB.sp.C98_reverse`, `WB.sp.C98_excursions`, `WB.sp.C98_excursion`, `WB.sp.C98_table`, `WB.sp.C98_variant`

## C99

* propext, Classical.choice, Quot.sound: `WB.sp.C99_maurer`, `WB.sp.C99_default`, `WB.sp.C99_total`, `WB.sp.C99_bad`

## C100

* propext, Classical.choice, Quot.sound: `WB.m4w.C100_product`, `WB.m4w.C100_choice`, `WB.m4w.C100_parity`, `WB.m4w.C100_codebook`, `WB.m4w.C100_table`

* propext, Quot.sound: `WB.m4w.C100_dimension`, `WB.m4w.C100_empty`

## C101

* propext, Classical.choice, Quot.sound: `WB.m4w.C101_transpose`, `WB.m4w.C101_twice`, `WB.m4w.C101_word`, `WB.m4w.C101_violated`

* propext, Quot.sound: `WB.m4w.C101_empty_violated`

## C102

* propext, Classical.choice, Quot.sound: `WB.m4w.C102_echelonize`, `WB.m4w.C102_default`, `WB.m4w.C102_unique`, `WB.m4w.C102_choice`, `WB.m4w.C102_find_pivot`, `WB.m4w.C102_violated`

* propext, Quot.sound: `WB.m4w.C102_hang_violated`

## C103

* propext, Classical.choice, Quot.sound: `WB.m4w.C103_inverse`, `WB.m4w.C103_square`, `WB.m4w.C103_singular_violated`, `WB.m4w.C103_violated`

* propext, Quot.sound: `WB.m4w.C103_not_square`

## C104

* propext, Classical.choice, Quot.sound: `WB.m4w.C104_contract`, `WB.m4w.C104_mul`, `WB.m4w.C104_inv`, `WB.m4w.C104_transpose`, `WB.m4w.C104_ApplyMatToU32`, `WB.m4w.C104_GenMatGf2Inv`

## C105

* propext, Classical.choice, Quot.sound: `WB.m4w.C105_init`, `WB.m4w.C105_read_bit`, `WB.m4w.C105_write_bit`, `WB.m4w.C105_add`, `WB.m4w.C105_concat`, `WB.m4w.C105_stack`, `WB.m4w.C105_copy`, `WB.m4w.C105_from_str`, `WB.m4w.C105_randomize`, `WB.m4w.C105_cmp`, `WB.m4w.C105_order`

* propext, Quot.sound: `WB.m4w.C105_add_sizes`, `WB.m4w.C105_concat_sizes`, `WB.m4w.C105_cmp_sizes`, `WB.m4w.C105_no_columns_violated`

* none: `WB.m4w.C105_stack_sizes`

## C106

* propext, Classical.choice, Quot.sound: `WB.m4w.C106_reduced`, `WB.m4w.C106_same`, `WB.m4w.C106_echelon`, `WB.m4w.C106_last_bit`, `WB.m4w.C106_submatrix_partial`, `WB.m4w.C106_submatrix_oob_violated`, `WB.m4w.C106_submatrix_violated`, `WB.m4w.C106_inverse`, `WB.m4w.C106_singular_violated`, `WB.m4w.C106_invert_violated`

* propext, Quot.sound: `WB.m4w.C106_invert_sizes`

## C107

* propext, Classical.choice, Quot.sound: `WB.m4w.C107_word`, `WB.m4w.C107_matrix`, `WB.m4w.C107_invertible`, `WB.m4w.C107_quarter`

## C108

* propext, Classical.choice, Quot.sound: `WB.m4w.C108_product_partial`, `WB.m4w.C108_default`, `WB.m4w.C108_cutoff`, `WB.m4w.C108_abort_violated`, `WB.m4w.C108_crash_violated`, `WB.m4w.C108_overflow_violated`, `WB.m4w.C108_square_partial`, `WB.m4w.C108_square_abort_violated`, `WB.m4w.C108_addmul_partial`, `WB.m4w.C108_addmul_crash_violated`, `WB.m4w.C108_addsquare`, `WB.m4w.C108_violated`

* propext, Quot.sound: `WB.m4w.C108_dimension`

## C109

* propext, Classical.choice, Quot.sound: `WB.m4w.C109_matrix_zero`, `WB.m4w.C109_matrix_succ`, `WB.m4w.C109_matrix_inverse`, `WB.m4w.C109_left`, `WB.m4w.C109_left_trans`, `WB.m4w.C109_left_undo`, `WB.m4w.C109_left_assert`, `WB.m4w.C109_right_trans_entries`, `WB.m4w.C109_right_entries`, `WB.m4w.C109_right_trans_partial`, `WB.m4w.C109_right_partial`, `WB.m4w.C109_right_undo_partial`, `WB.m4w.C109_short_violated`, `WB.m4w.C109_range_violated`, `WB.m4w.C109_col_swap`, `WB.m4w.C109_columns_trans`, `WB.m4w.C109_columns`, `WB.m4w.C109_right_violated`, `WB.m4w.C109_capped_trans`, `WB.m4w.C109_capped`, `WB.m4w.C109_capped_partial`, `WB.m4w.C109_capped_column_violated`, `WB.m4w.C109_capped_violated`, `WB.m4w.C109_tri`

* propext, Quot.sound: `WB.m4w.C109_no_columns_violated`, `WB.m4w.C109_tri_sizes`, `WB.m4w.C109_init`, `WB.m4w.C109_set_ui`, `WB.m4w.C109_copy`, `WB.m4w.C109_copy_violated`

## C110

* propext, Classical.choice, Quot.sound: `WB.m4a.C110_log2`, `WB.m4a.C110_malloc`, `WB.m4a.C110_free`, `WB.m4a.C110_live`, `WB.m4a.C110_memory`, `WB.m4a.C110_empty`, `WB.m4a.C110_own`

## C111

* propext, Classical.choice, Quot.sound: `WB.m4a.C111_malloc`, `WB.m4a.C111_free`, `WB.m4a.C111_live`, `WB.m4a.C111_cleanup`, `WB.m4a.C111_bound`, `WB.m4a.C111_reuse`

* propext, Quot.sound: `WB.m4a.C111_zero_violated`, `WB.m4a.C111_leak_violated`

## C112

* propext, Classical.choice, Quot.sound: `WB.m4l.C112_init`, `WB.m4l.C112_rows`, `WB.m4l.C112_window_partial`, `WB.m4l.C112_window_violated`, `WB.m4l.C112_row`, `WB.m4l.C112_row_violated`, `WB.m4l.C112_first`, `WB.m4l.C112_rows_in_block`, `WB.m4l.C112_remaining`, `WB.m4l.C112_remaining_partial`, `WB.m4l.C112_remaining_violated`, `WB.m4l.C112_col_swap`, `WB.m4l.C112_in_rows_partial`, `WB.m4l.C112_in_rows_violated`

## C113

* propext, Classical.choice, Quot.sound: `WB.m4a.C113_free`, `WB.m4a.C113_all`, `WB.m4a.C113_live`, `WB.m4a.C113_apart`, `WB.m4a.C113_twice_violated`

## C114

* propext, Classical.choice, Quot.sound: `WB.m4w.C114_unique`, `WB.m4w.C114_lower_partial`, `WB.m4w.C114_upper_partial`, `WB.m4w.C114_upper_small_partial`, `WB.m4w.C114_cutoff_violated`, `WB.m4w.C114_no_columns_violated`, `WB.m4w.C114_violated`

* propext, Quot.sound: `WB.m4w.C114_dimension`

## C115

* propext, Classical.choice, Quot.sound: `WB.m4w.C115_unique`, `WB.m4w.C115_lower_partial`, `WB.m4w.C115_default`, `WB.m4w.C115_crash_violated`, `WB.m4w.C115_upper_base`, `WB.m4w.C115_violated`

* propext, Quot.sound: `WB.m4w.C115_dimension`

## C116

* propext, Classical.choice, Quot.sound: `WB.m4w.C116_compile_partial`, `WB.m4w.C116_violated`

* propext, Quot.sound: `WB.m4w.C116_no_rows_violated`, `WB.m4w.C116_window_violated`

## C117

* propext, Classical.choice, Quot.sound: `WB.m4w.C117_apply_partial`, `WB.m4w.C117_product_iff`, `WB.m4w.C117_violated`

* propext, Quot.sound: `WB.m4w.C117_dimension`, `WB.m4w.C117_old_rows_violated`, `WB.m4w.C117_window_violated`

## C118

* propext, Classical.choice, Quot.sound: `WB.m4w.C118_pluq`

## C119

* propext, Classical.choice, Quot.sound: `WB.m4w.C119_ple`

## C120

* propext, Classical.choice, Quot.sound: `WB.m4w.C120_solve_partial`, `WB.m4w.C120_dimension`, `WB.m4w.C120_no_columns_violated`, `WB.m4w.C120_cutoff_violated`, `WB.m4w.C120_violated`, `WB.m4w.C120_naive_partial`

## C121

* propext, Classical.choice, Quot.sound: `WB.m4w.C121_kernel_partial`, `WB.m4w.C121_naive_partial`, `WB.m4w.C121_cutoff_violated`, `WB.m4w.C121_violated`

## C122

* propext, Classical.choice, Quot.sound: `WB.m4w.C122_echelon_partial`, `WB.m4w.C122_naive_factors`, `WB.m4w.C122_naive`, `WB.m4w.C122_no_columns_violated`, `WB.m4w.C122_violated`

## C123

* propext, Classical.choice, Quot.sound: `WB.m4w.C123_last_partial`, `WB.m4w.C123_first_iff`, `WB.m4w.C123_zero_row_violated`, `WB.m4w.C123_violated`, `WB.m4w.C123_window_violated`

* propext, Quot.sound: `WB.m4w.C123_no_columns_violated`

## C124

* propext, Classical.choice, Quot.sound: `WB.m4w.C124_upper_partial`, `WB.m4w.C124_lower_partial`, `WB.m4w.C124_sum`, `WB.m4w.C124_given_upper_violated`, `WB.m4w.C124_given_lower_violated`, `WB.m4w.C124_violated`

* propext, Quot.sound: `WB.m4w.C124_size`

## C125

* propext, Classical.choice, Quot.sound: `WB.m4w.C125_rank`, `WB.m4w.C125_pluq_partial`, `WB.m4w.C125_no_columns_violated`, `WB.m4w.C125_naive_factors`, `WB.m4w.C125_violated`

* propext, Quot.sound: `WB.m4w.C125_size`

## C126

* propext, Classical.choice, Quot.sound: `WB.m4w.C126_solve_partial`, `WB.m4w.C126_kernel_partial`, `WB.m4w.C126_no_columns_violated`, `WB.m4w.C126_violated`

* propext, Quot.sound: `WB.m4w.C126_size`

## C127

* propext, Classical.choice, Quot.sound: `WB.m4w.C127_echelon_partial`, `WB.m4w.C127_same`, `WB.m4w.C127_no_columns_violated`, `WB.m4w.C127_violated`

## C128

* propext, Classical.choice, Quot.sound: `WB.m4w.C128_compress_partial`, `WB.m4w.C128_clean`, `WB.m4w.C128_behind_violated`, `WB.m4w.C128_violated`

## C129

* propext, Classical.choice, Quot.sound: `WB.m4w.C129_clear_partial`, `WB.m4w.C129_clear_violated`, `WB.m4w.C129_copy_partial`, `WB.m4w.C129_violated`

* propext, Quot.sound: `WB.m4w.C129_shift_violated`, `WB.m4w.C129_copy_size`, `WB.m4w.C129_no_columns_violated`

## C130

* propext, Classical.choice, Quot.sound: `WB.m4w.C130_equal_partial`, `WB.m4w.C130_violated`

* propext, Quot.sound: `WB.m4w.C130_size`, `WB.m4w.C130_same`, `WB.m4w.C130_no_columns_violated`

## C131

* propext, Classical.choice, Quot.sound: `WB.m4w.C131_bitcount`, `WB.m4w.C131_density_partial`, `WB.m4w.C131_last_word_violated`, `WB.m4w.C131_violated`

* propext, Quot.sound: `WB.m4w.C131_no_rows`

## C132

* propext, Quot.sound: `WB.m4w.C132_read`, `WB.m4w.C132_and_empty_violated`

* propext, Classical.choice, Quot.sound: `WB.m4w.C132_clear`, `WB.m4w.C132_xor`, `WB.m4w.C132_and_partial`, `WB.m4w.C132_and_violated`, `WB.m4w.C132_violated`

## C133

* propext, Classical.choice, Quot.sound: `WB.m4w.C133_same_partial`, `WB.m4w.C133_defined`, `WB.m4w.C133_undefined_violated`, `WB.m4w.C133_zero_row_violated`, `WB.m4w.C133_window_violated`, `WB.m4w.C133_violated`

## C134

* propext, Quot.sound: `WB.m4w.C134_swap`, `WB.m4w.C134_swap_swap`, `WB.m4w.C134_length`

* propext, Classical.choice, Quot.sound: `WB.m4w.C134_spread`, `WB.m4w.C134_shrink`, `WB.m4w.C134_shrink_spread`, `WB.m4w.C134_spread_shrink`, `WB.m4w.C134_order`

## C135

* propext, Classical.choice, Quot.sound: `WB.m4w.C135_colon`, `WB.m4w.C135_plain`, `WB.m4w.C135_injective`

## C136

* propext, Classical.choice, Quot.sound: `WB.m4w.C136_print_partial`, `WB.m4w.C136_row`, `WB.m4w.C136_injective`, `WB.m4w.C136_violated`

* propext, Quot.sound: `WB.m4w.C136_no_columns_violated`

## C137

* propext, Classical.choice, Quot.sound: `WB.m4w.C137_read_partial`, `WB.m4w.C137_column_partial`, `WB.m4w.C137_row_partial`, `WB.m4w.C137_zero_violated`, `WB.m4w.C137_zero_rows`

* propext, Quot.sound: `WB.m4w.C137_header`, `WB.m4w.C137_first_violated`, `WB.m4w.C137_violated`

## C138

* propext, Classical.choice, Quot.sound: `WB.m4w.C138_coin_violated`, `WB.m4w.C138_coin_partial`, `WB.m4w.C138_word`, `WB.m4w.C138_custom_partial`, `WB.m4w.C138_violated`

* propext: `WB.m4w.C138_coin_bit`

* propext, Quot.sound: `WB.m4w.C138_empty_violated`

## C139

* propext, Classical.choice, Quot.sound: `WB.m4a.C139_fini`, `WB.m4a.C139_live`, `WB.m4a.C139_init`, `WB.m4a.C139_twice`, `WB.m4a.C139_apart`, `WB.m4a.C139_program`, `WB.m4a.C139_free`

## C140

* propext, Classical.choice, Quot.sound: `WB.m4w.C140_add_partial`, `WB.m4w.C140_itself_violated`, `WB.m4w.C140_negative_violated`, `WB.m4w.C140_violated`

* propext, Quot.sound: `WB.m4w.C140_assert`, `WB.m4w.C140_index_partial`
