{
 "C01": {
  "status": "proved",
  "note": "All seven sizes, both byte orders, any old output. For n=4 the product of the low nibbles, and the result has a zero high nibble."
 },
 "C02": {
  "status": "proved",
  "note": "Equality with the GF(2) product and with the vector stored by MatMulVec."
 },
 "C03": {
  "status": "proved",
  "note": "All seven sizes; n=4 needs a clean second operand, as in the English statement (C34 shows that this is necessary)."
 },
 "C04": {
  "status": "proved",
  "note": "All seven sizes; the mask-and-shift networks are verified stage by stage for arbitrary matrices."
 },
 "C05": {
  "status": "proved",
  "note": "All seven sizes."
 },
 "C06": {
  "status": "proved",
  "note": "All seven sizes."
 },
 "C07": {
  "status": "proved",
  "note": "All seven sizes."
 },
 "C08": {
  "status": "partial",
  "note": "Proved for n up to 128. For n=256 the property is false: C08_isequalV256_violated is the negation, C08_isequalV256_partial the exact behaviour (only words 0 and 1 are compared)."
 },
 "C09": {
  "status": "proved",
  "note": "All sizes of readbitM, flipbitM and setbitM; both in-range results are exact (one bit changes, all others stay)."
 },
 "C10": {
  "status": "proved",
  "note": "All seven sizes: the result of every call with an index out of range is the out-of-bounds outcome of the model."
 },
 "C11": {
  "status": "proved",
  "note": "All sizes."
 },
 "C12": {
  "status": "proved",
  "note": "All seven sizes; n=4 for clean matrices as in the English statement."
 },
 "C13": {
  "status": "proved",
  "note": "All seven sizes, also for dirty 4-bit matrices."
 },
 "C14": {
  "status": "proved",
  "note": "All seven sizes."
 },
 "C15": {
  "status": "proved",
  "note": "All seven sizes, for every world, clock, junk and old output."
 },
 "C16": {
  "status": "proved",
  "note": "Every array access of the model is bounds checked with the C capacity and the trail entries are 8-bit words, so absence of the error outcome together with C15 is the claim."
 },
 "C17": {
  "status": "proved",
  "note": "All six sizes; affineU128 also in place."
 },
 "C18": {
  "status": "proved",
  "note": "All six sizes."
 },
 "C19": {
  "status": "proved",
  "note": "All six sizes; the outputs are equal as stored words, not only as vectors."
 },
 "C20": {
  "status": "proved",
  "note": "All matrix, vector and affine concatenation functions; stated for little-endian machines as in the English statement (C22 treats the other byte order)."
 },
 "C21": {
  "status": "proved",
  "note": "Affine concatenation acts on the parts independently, all size pairs."
 },
 "C22": {
  "status": "proved",
  "note": "Exact block order on big-endian machines; the results differ from the little-endian ones."
 },
 "C23": {
  "status": "proved",
  "note": "Whole table checked by kernel evaluation and lifted to all words, both byte orders."
 },
 "C24": {
  "status": "proved",
  "note": "Whole table checked by kernel evaluation and lifted to all words, both byte orders."
 },
 "C25": {
  "status": "proved",
  "note": "permuteQPR is a bijection; the modulus is proved prime by kernel-evaluated trial division."
 },
 "C26": {
  "status": "proved",
  "note": "Distinctness, every value exactly once, period 2^32 and no smaller period."
 },
 "C27": {
  "status": "proved",
  "note": "Injective in each of the two state words; also onto."
 },
 "C28": {
  "status": "proved",
  "note": "Sizes 32, 64, 128, 256, both byte orders; for 128 and 256 even all 64-bit words are pairwise different."
 },
 "C29": {
  "status": "proved",
  "note": "Relational proof: any two worlds, stack garbages and old outputs. The pair generators depend only on the second of their two seedings."
 },
 "C30": {
  "status": "partial",
  "note": "The property is false. *_violated: whole families of states in which two consecutive calls return the same object, for every size. *_partial: the generator states differ whenever counter xor clock differs; C30_collision is the exact collision condition."
 },
 "C31": {
  "status": "proved",
  "note": "Arbitrary call sequences (all rand and gen functions) between the two calls, fewer than 2^32 seedings apart; only the two clock readings involved must be equal."
 },
 "C32": {
  "status": "partial",
  "note": "The property is false. *_violated: the result does not depend on seed or clock, and is a fixed constant in a fresh process. *_partial: with another rand call in between the seed does reach the generator state used by randV64."
 },
 "C33": {
  "status": "proved",
  "note": "Eleven functions on 4-bit objects."
 },
 "C34": {
  "status": "proved",
  "note": "Violations by witness plus exact characterisations for arbitrary (dirty) contents."
 },
 "C35": {
  "status": "proved",
  "note": "Ring laws observed through the API, all seven sizes, bit for bit."
 },
 "C36": {
  "status": "proved",
  "note": "Deterministic functions without output have no access to the world in the model (their type is C, not CM), following the C text, which mentions the generator state only in the listed functions; for the print functions the frame is a theorem. Aliasing: *_inplace and *_others theorems over an arbitrary assignment of objects to variables."
 },
 "C37": {
  "status": "proved",
  "note": "All six sizes that exist (printbitM256 is declared but not defined, see C40): the exact text, and different matrices give different texts."
 },
 "C38": {
  "status": "proved",
  "note": "All seven sizes, matrices and vectors: the exact text, readability of the numbers, and injectivity."
 },
 "C39": {
  "status": "partial",
  "note": "The property is false for 64 and 128 bits: every call has undefined behaviour (%x with a 64-bit argument), C39_printU64_violated and C39_printU128_violated. Proved for 8, 16, 32 and 256 bits."
 },
 "C40": {
  "status": "partial",
  "note": "The property is false, C40_violated. C40_partial: exactly five functions are missing. The lists are extracted from the text of /repo by tools/gen_symbols.py."
 },
 "C41": {
  "status": "proved",
  "note": "Refinement by induction over the program, all seven sizes."
 },
 "C42": {
  "status": "proved",
  "note": "All seven sizes, any old contents, stack garbage and byte order. The elimination of genMatpair is shown to miss a pivot exactly when the drawn matrix is singular."
 },
 "C43": {
  "status": "proved",
  "note": "Against an independent SM4 specification (algebraic S-box, CK by formula) checked on the published test vector; every unsigned long width >= 32."
 },
 "C44": {
  "status": "proved",
  "note": "ECB and CBC, in place or disjoint buffers; chaining value written back to iv."
 },
 "C45": {
  "status": "proved",
  "note": "The demo code run on the current library (Lib.current); little-endian. main.c timing loops are not modelled."
 },
 "C46": {
  "status": "partial",
  "note": "The property is false: C46_violated (every key) and a CBC witness. C46_setkey_enc_partial is the half that holds."
 },
 "C47": {
  "status": "proved",
  "note": "Exact characterisation, no assumption on overlap."
 },
 "C48": {
  "status": "proved",
  "note": "poly is the obvious map from bytes to Mathlib polynomials over ZMod 2; the product is Mathlib's remainder modulo a monic polynomial."
 },
 "C49": {
  "status": "proved",
  "note": "Against an independent FIPS 197 specification checked on the published vectors."
 },
 "C50": {
  "status": "proved",
  "note": "The demo code run on the current library (Lib.current), both byte orders; int shifts wrap (see C52). printTables/printState are not modelled."
 },
 "C51": {
  "status": "partial",
  "note": "The property is false: C51_other_calls_violated for every number of calls that is not 1 modulo 4. C51_repeated_calls says exactly what the tables compute after any number of calls; C51_repeated_calls_partial is the case in which the property holds."
 },
 "C52": {
  "status": "partial",
  "note": "The property is false under ISO C for every input: C52_computeTables_violated. C52_computeTables_partial: with wrapping shifts no call faults."
 },
 "C53": {
  "status": "proved",
  "note": "A negative result about the demo, stated as what holds: the encodings cancel. Demo code on the current library; int shifts wrap (see C52)."
 },
 "C54": {
  "status": "proved",
  "note": "Functions whose text differs between the versions are modelled separately (Model/Old.lean); functions with identical text share the definition, which is justified by a textual comparison, not by a theorem. isinvertM128 and invsM128 differ only by declaring the swap variable as an array and share the definition. printU64 and printU128 are not compared (both versions pass a 64-bit value to %x, see C39)."
 },
 "C55": {
  "status": "proved",
  "note": "Little-endian for SM4 (see C45). int shifts wrap for AES (see C52)."
 },
 "C56": {
  "status": "proved",
  "note": "The seed counter of this program is an int; C56_InvTMatM{n}_overflow covers the largest one. The timing code in main is not modelled."
 },
 "C57": {
  "status": "partial",
  "note": "False for size 256: C57_upM256_violated, C57_InvTMatM256_violated. C57_upM256_partial and C57_InvTMatM256_partial say exactly when the index is out of range and what is computed otherwise; the _flat_partial theorems what happens where the access reaches the next row. Sizes up to 128 hold in full. The timing code in main is not modelled."
 },
 "C58": {
  "status": "proved",
  "note": "The unbounded loop is modelled with a bound that the theorems quantify over; running out of it is the outcome diverge. The timing code in main is not modelled."
 },
 "C59": {
  "status": "partial",
  "note": "Proved in full for sizes 8 to 64. False for size 128: C59_MatrixpairM128_violated and C59_InvSMatM128_violated (for every generator and trail), C59_InvTMatM128_violated; C59_InvTMatM128_partial says exactly when the result is invertible. The generator of the C library is an arbitrary function. The timing code in main is not modelled."
 },
 "C60": {
  "status": "proved",
  "note": "The whole main function, including all printed text. Blocks that the program repeats per width are written once and instantiated (tools/check_accuracy.py compares the text of the instances). The loop counter after a loop with break is represented by whether the loop was left early."
 },
 "C61": {
  "status": "proved",
  "note": "For size 4 a table of 65536 seeds is checked by the kernel (tools/gen_c61_reach4.py). The sets are over all runs of the model; the bound for genMatpair of sizes 8 and more is not claimed to be attained."
 },
 "C62": {
  "status": "proved",
  "note": "Nineteen consecutive draws determine the generator state: the squares modulo p would have to differ by a constant modulo 2^32."
 },
 "C63": {
  "status": "proved",
  "note": "Primitivity of the register polynomial from kernel-checked certificates (tools/gen_lfsr.py): powers by squaring, one inverse per prime factor of 2^80 - 1, primality by Lucas. The bits by counting first returns to the states with bit 78 set on the single cycle of the squared register."
 },
 "C64": {
  "status": "proved",
  "note": "The local matrix is uninitialised in the source; the model gives it arbitrary contents env.junk. Whether the loop ends for particular contents (other than the cases stated) is not decided."
 },
 "C65": {
  "status": "proved",
  "note": "M4RI's product, inverse, transpose and random bits are parameters; their contract is M4ri.Ok (C104 shows that M4RI's own algorithms meet it). The heap of matrices is modelled. Copying needs columns or no rows (C105_no_columns_violated)."
 },
 "C66": {
  "status": "partial",
  "note": "False in the points listed: C66_*_violated. The functions that are safe are proved so; C66_MatGf2Copy_partial and C66_MatGf2Diag_partial need a destination that is not an operand; copying also needs columns or no rows (C105_no_columns_violated)."
 },
 "C67": {
  "status": "proved",
  "note": "mzd_gauss_delayed is modelled and proved to preserve the row space; the last diagonal element of the echelon form decides."
 },
 "C68": {
  "status": "partial",
  "note": "False in the points listed: C68_*_violated give the exact behaviour; the partial theorems need square matrices and values that are not negative."
 },
 "C69": {
  "status": "proved",
  "note": "mzd_cmp compares words of 64 columns, from the last word to the first."
 },
 "C70": {
  "status": "proved",
  "note": "M4RI's product, inverse and transpose are parameters with a contract (M4ri.Ok, see C104). The case in which ApplyAffineTransform uses a freed vector is C70_ApplyAffineTransform_vector."
 },
 "C71": {
  "status": "proved",
  "note": "M4RI's product, inverse and transpose are parameters with a contract. Timing and output of main are not modelled; TEST is any positive number. The agreement with the WBMatrix demo is for little-endian machines, as C45."
 },
 "C72": {
  "status": "partial",
  "note": "False for repeated calls: C72_main_leak_violated. C72_gen_tables and C72_enc are the parts that hold."
 },
 "C73": {
  "status": "proved",
  "note": "M4RI's product, inverse and transpose are parameters with a contract. aes.c and the parts of genTables.c without matrices are the same text as in the WBMatrix demo and share its model."
 },
 "C74": {
  "status": "partial",
  "note": "False: C74_other_counts_violated (every TEST that is not 1 modulo 4), C74_iso_violated (ISO C). C74_main_partial is the part that holds; C74_main_tables determines the tables for every TEST."
 },
 "C75": {
  "status": "partial",
  "note": "False: C75_computeTables_violated and C75_main_violated give the exact number of matrices left behind; the part that holds (older matrices are kept) is in the same theorems."
 },
 "C76": {
  "status": "proved",
  "note": "NTL is described, not modelled (DESIGN.md section 4). Loops that draw until a condition holds have an iteration budget; .diverge means that it is used up, and C76_more_attempts shows that the budget does not influence results."
 },
 "C77": {
  "status": "partial",
  "note": "False: C77_violated, C77_identity_violated, C77_small_sizes_violated. The exact range is C77_range_partial, C77_affine_range_partial and C77_inv_range_partial."
 },
 "C78": {
  "status": "proved",
  "note": "NTL is described, not modelled (DESIGN.md section 4)."
 },
 "C79": {
  "status": "partial",
  "note": "False: C79_violated, C79_stream_violated, C79_unset_inverse_violated. C79_cout_partial gives the text that is written to cout when the inverse is set."
 },
 "C80": {
  "status": "proved",
  "note": "The random bits are an arbitrary sequence; the attempts per row and matrix are bounded by fuel, which is arbitrary. NTL's product, sum and inverse are modelled by their mathematical definition. Timing and output of main are not modelled; TEST is any positive number. The agreement with the WBMatrix demo is for little-endian machines, as C45."
 },
 "C81": {
  "status": "proved",
  "note": "aes.cpp and the parts of genTables.cpp without matrices are the same text as in the WBMatrix demo and share its model. Shifts of int follow C++14 and later (no undefined behaviour). Random bits and NTL as in C80."
 },
 "C82": {
  "status": "partial",
  "note": "False: C82_violated, C82_other_counts_violated (every TEST that is not 1 modulo 4). C82_main_partial is the part that holds; C82_main_tables determines the tables for every TEST."
 },
 "C83": {
  "status": "partial",
  "note": "False for order 1: C83_violated, C83_order_one_violated (also C83_singular_violated). C83_cofactor_partial and C83_cofactor_returns cover every order from 2 on; C83_determinant covers all orders. Floating point numbers are exact rational numbers in the model; rounding is not modelled."
 },
 "C84": {
  "status": "partial",
  "note": "False: C84_violated. C84_determinant_violated, C84_cofactor_violated, C84_order_one_violated and C84_main_violated give the exact numbers of blocks."
 },
 "C85": {
  "status": "partial",
  "note": "False for order 1: C85_violated, C85_order_one_violated. C85_inverse_partial covers the orders 2 to 100, C85_det 1 to 100. Floating point numbers are exact rational numbers in the model; rounding is not modelled."
 },
 "C86": {
  "status": "partial",
  "note": "False for order 1: C86_violated, C86_adjugate_one_violated, C86_inverse_one_violated. C86_adjugate_partial and C86_inverse_partial cover every order from 2 on. Floating point numbers are exact rational numbers in the model; rounding is not modelled."
 },
 "C87": {
  "status": "partial",
  "note": "False: C87_violated. C87_adjugate_violated, C87_inverse_violated and C87_main_violated give the exact numbers of blocks; C87_inverse_one_partial is the case without a leak."
 },
 "C88": {
  "status": "partial",
  "note": "False: C88_violated, C88_bits_violated. C88_inverse_partial covers every run that returns, C88_outcome and C88_step say exactly when a run does not. Floating point numbers are exact rational numbers in the model; rounding is not modelled."
 },
 "C89": {
  "status": "partial",
  "note": "False: C89_violated, C89_permutation_violated, C89_main_violated, C89_repeated_violated. C89_reverse_partial covers every call that returns; C89_outcome, C89_main_element, C89_pivot and C89_zero_pivot say when one does not. Floating point numbers are exact rational numbers in the model; rounding is not modelled."
 },
 "C90": {
  "status": "partial",
  "note": "False: C90_violated, C90_singular_violated, C90_gf2_violated, C90_order_one_violated, C90_uninitialised_violated. C90_order_two_partial is the size for which it holds; C90_bounds and C90_last_column_violated hold for all sizes from 2 on."
 },
 "C91": {
  "status": "partial",
  "note": "False: C91_violated, C91_order_violated, C91_emptied_violated. C91_order_partial is what holds. The file system is a map from path names to contents; links and missing directories are not modelled."
 },
 "C92": {
  "status": "partial",
  "note": "False for matrices that are not square: C92_violated, C92_tall_violated, C92_wide_violated, and for computeRank: C92_computeRank_violated. C92_square_partial covers all square matrices; C92_test, C92_prob_full and C92_prob_pred the test that uses them. Real numbers instead of floating point numbers."
 },
 "C93": {
  "status": "proved",
  "note": "Berlekamp-Massey algorithm, proved with formal power series. C93_poly_violated shows what the missing coefficient means. In C93_test numbers are exact instead of floating point numbers."
 },
 "C94": {
  "status": "partial",
  "note": "False for x = 0: C94_violated, C94_zero_violated, C94_zero_whole_violated. C94_whole_partial covers whole a from 1 to 50 and x > 0. For other a the continued fraction is an approximation, about which nothing is proved. Real numbers instead of floating point numbers."
 },
 "C95": {
  "status": "proved",
  "note": "C95_balanced_violated is the consequence of C94 for frequency_within_block_test. Real numbers instead of floating point numbers."
 },
 "C96": {
  "status": "partial",
  "note": "False if a statistic is 0 (C96_serial_violated, C96_entropy_violated, C96_violated); C96_serial_partial and C96_entropy_partial are exact otherwise. Real numbers instead of floating point numbers."
 },
 "C97": {
  "status": "partial",
  "note": "C97_count_partial and C97_p_partial say what is computed; C97_count_violated, C97_absent_violated, C97_constant_violated what goes wrong. The P value of the overlapping test is a call of gammaincc with 5/2, for which C94 gives no closed form. Real numbers instead of floating point numbers."
 },
 "C98": {
  "status": "proved",
  "note": "The P values of random_excursion_test are calls of gammaincc with 5/2. Real numbers instead of floating point numbers."
 },
 "C99": {
  "status": "proved",
  "note": "Real numbers instead of floating point numbers; / between whole numbers as in Python 3."
 },
 "C100": {
  "status": "proved",
  "note": "Word level. k is an arbitrary integer (the code computes it in floating point and clamps it). The second factor must lie in one block of memory if it has less than 54 columns, since matrices in several blocks are transposed by a function that is not modelled."
 },
 "C101": {
  "status": "partial",
  "note": "False for matrices with rows but no columns or columns but no rows (C101_empty_violated, C101_violated). C101_transpose covers every other matrix that lies, like its transpose, in one block of memory (2^27 words); _mzd_transpose_multiblock is not modelled."
 },
 "C102": {
  "status": "partial",
  "note": "Word level. False for k = 0 with at most three rows and at least 87382 columns (C102_hang_violated, C102_violated: no amount of fuel suffices). C102_echelonize covers k from 1 to 10, C102_default covers k = 0 for all other sizes. The full = 0 variant (_mzd_top_echelonize_m4ri) and k > 10 are not modelled."
 },
 "C103": {
  "status": "partial",
  "note": "False for singular matrices (C103_singular_violated, C103_violated); C103_inverse covers every invertible matrix, C103_square says what is returned for every square matrix."
 },
 "C104": {
  "status": "proved",
  "note": "wordLib is the library made of the modelled algorithms; C104_mul, C104_inv and C104_transpose say for which sizes it uses them, the ideal library is used for the remaining (huge) sizes."
 },
 "C105": {
  "status": "partial",
  "note": "False for matrices with rows but no columns (C105_no_columns_violated: mzd_copy, mzd_cmp, mzd_randomize); proved for all others."
 },
 "C106": {
  "status": "partial",
  "note": "The echelon forms are proved for every matrix. False for submatrices (C106_submatrix_violated; C106_submatrix_partial and C106_submatrix_oob_violated cover all cases) and for the report of singular matrices (C106_invert_violated, C106_singular_violated)."
 },
 "C107": {
  "status": "proved",
  "note": "Counts of results of random(); that random() is uniform is the hypothesis of the reading, not of the theorems. The variant for _MSC_VER is not modelled."
 },
 "C108": {
  "status": "partial",
  "note": "False for small and for very large cutoffs (C108_violated). C108_product_partial, C108_square_partial, C108_addmul_partial and C108_addsquare are for all sizes and cutoffs that are not covered by the theorems that end in _violated, which prove the failure for every matrix of these sizes. With the default cutoff there is no exception (C108_default). C, A and B are different matrices unless the square is meant; one thread."
 },
 "C109": {
  "status": "partial",
  "note": "False for columns (C109_right_violated, C109_capped_violated). The rows are right for all permutations that meet the assertions (C109_left, C109_left_trans, C109_left_undo); the columns are right if there is a column and the elements are less than the length of the permutation (C109_right_partial, C109_right_trans_partial, C109_right_undo_partial), and C109_right_entries and C109_right_trans_entries say what is computed otherwise. The versions that exchange columns are right without this condition (C109_columns, C109_columns_trans). The matrix of a permutation is fixed by C109_matrix_zero and C109_matrix_succ. All rows of a matrix lie in one block of memory; assertions are on."
 },
 "C110": {
  "status": "proved",
  "note": "One thread; addresses are never reused by the system and malloc does not fail. The header of a matrix is abstracted to its place. The invariant of the list of blocks is an induction over all sequences of calls."
 },
 "C111": {
  "status": "partial",
  "note": "False for requests of 0 bytes (C111_zero_violated, C111_leak_violated; M4RI itself makes none). For all other programs C111_malloc, C111_free, C111_live, C111_cleanup, C111_bound and C111_reuse. One thread; addresses are never reused by the system and malloc does not fail."
 },
 "C112": {
  "status": "partial",
  "note": "False for windows that start in the middle of a block (C112_remaining_violated, C112_in_rows_violated), for empty windows behind the last row (C112_window_violated) and behind 2^31 words (C112_row_violated); in all other cases right (C112_window_partial, C112_remaining_partial, C112_in_rows_partial, C112_row), and C112_remaining says how much is too much. Right without exception: C112_init, C112_rows, C112_first, C112_rows_in_block, C112_col_swap. Addresses are pairs of a block and a place in it; the words are left out. The cases of C112_in_rows_partial and C112_in_rows_violated together are all cases with start < stop whose first row is before 2^31 words."
 },
 "C113": {
  "status": "proved",
  "note": "On the cache of C111, one thread; the headers (C110) and the words are left out, sizes are natural numbers. C113_twice_violated shows that the condition on the program is needed."
 },
 "C114": {
  "status": "partial",
  "note": "False for mzd_trsm_upper_left with certain cutoffs (C114_cutoff_violated, C114_violated) and for right-hand sides without columns (C114_no_columns_violated). Right for mzd_trsm_lower_left with all cutoffs below 2^29 (C114_lower_partial), for mzd_trsm_upper_left with all cutoffs that are multiples of 64, 0 among them (C114_upper_partial), and with every cutoff up to the block size (C114_upper_small_partial). Missing: which other cutoffs are right for mzd_trsm_upper_left above the block size. Unused bits of B (and U) have to be zero above the block size because the product reads them."
 },
 "C115": {
  "status": "partial",
  "note": "False for small cutoffs: C115_lower_partial and C115_crash_violated together are all cases with cutoffs below 2^29, so the exceptions are exact. With the default cutoff there is no exception (C115_default). mzd_trsm_upper_right is not modelled except for its base case (C115_upper_base): above 64 columns it inverts with mzd_trtri_upper."
 },
 "C116": {
  "status": "partial",
  "note": "False for matrices without rows (C116_no_rows_violated) and for windows with bits to the right (C116_window_violated). Right for all matrices that have rows and whose unused bits are zero (C116_compile_partial), which includes termination, no fault in the heap, and the number of operations."
 },
 "C117": {
  "status": "partial",
  "note": "False if W is not zero (C117_old_rows_violated) and for windows (C117_window_violated). C117_apply_partial gives the result for every W; C117_product_iff: it is the product exactly if W was zero."
 },
 "C118": {
  "status": "proved",
  "note": "P and Q have the sizes that mzd_pluq demands. mzd_pluq itself calls _mzd_ple, which is not modelled."
 },
 "C119": {
  "status": "proved",
  "note": "P and Q have the sizes that mzd_ple demands. mzd_ple itself calls the block recursive or the table based procedure, which are not modelled."
 },
 "C120": {
  "status": "partial",
  "note": "False for right-hand sides without columns (C120_no_columns_violated) and for certain cutoffs with ranks above the block size of 512 (C120_cutoff_violated); the full statement is C120_statement, its negation C120_violated. Right for every rank up to the block size, and above it for cutoffs that are multiples of 64 when the rank is a multiple of 64 or the number of columns (C120_solve_partial); with the test and cutoffs below 128 the sizes of C108 that leave the matrices are excluded. C120_naive_partial joins it with the factorisation of C118. Missing: other ranks above 512. mzd_solve_left calls _mzd_pluq, which is not modelled. B has at least as many rows as A; the procedure does not test this. Windows are as in C108: the assertion of mzd_init_window that fails for an empty window behind the last row of a matrix that fills one block of memory exactly (C112) is not part of this model; with check and rank = nrows such a window is made."
 },
 "C121": {
  "status": "partial",
  "note": "False for certain cutoffs with ranks above the block size of 512 (C121_cutoff_violated); the full statement is C121_statement, its negation C121_violated. Right for every rank up to the block size and every cutoff, and above it for ranks and cutoffs that are multiples of 64 (C121_kernel_partial). C121_naive_partial joins it with the factorisation of C118. Missing: other ranks above 512. The factorisation that mzd_kernel_left_pluq itself calls, mzd_pluq, is not modelled."
 },
 "C122": {
  "status": "partial",
  "note": "False for matrices with rows and without columns, where the word before the first one is accessed (C122_no_columns_violated); the full statement is C122_statement, its negation C122_violated. Right for all others (C122_echelon_partial), for every procedure that satisfies Factors (Verif/SpecM4riPle.lean); C122_naive_factors and C122_naive: the naive factorisation of C119 does. Missing: _mzd_ple itself is not modelled (the branch for full = 1 is C127)."
 },
 "C123": {
  "status": "partial",
  "note": "False: rows of zeros above other rows are not found (C123_zero_row_violated), in windows with fewer than 64 columns bits behind the last column count (C123_window_violated), and a matrix without columns makes the program read outside of it (C123_no_columns_violated); the full statement is C123_statement, its negation C123_violated. What is right: the value is the smallest number from which on all rows are zero (C123_last_partial), and it is the first row of zeros exactly if no row of zeros is above another row (C123_first_iff)."
 },
 "C124": {
  "status": "partial",
  "note": "False for a matrix that is given: A is not read, and the part of the old contents of the given matrix is returned (C124_given_upper_violated, C124_given_lower_violated, which also says which bits outside of a window are lost); the full statement is C124_statement, its negation C124_violated. Right for NULL (C124_upper_partial, C124_lower_partial) and for wrong sizes (C124_size)."
 },
 "C125": {
  "status": "partial",
  "note": "False for matrices without columns, where the program divides by zero (C125_no_columns_violated); the full statement is C125_statement, its negation C125_violated. Right for all others, for mzd_pluq and _mzd_pluq (C125_pluq_partial), for every procedure that satisfies FactorsPerm (Verif/SpecM4riPle.lean); C125_naive_factors: the naive factorisation of C119 does. C125_rank: the number of a PLUQ factorisation is the rank; C125_size: other lengths. Missing: _mzd_ple itself is not modelled."
 },
 "C126": {
  "status": "partial",
  "note": "False without unknowns, where both functions divide by zero (C126_no_columns_violated), and with the cutoffs of C120 and C121; the full statement is C126_statement, its negation C126_violated. Right under the conditions of C120 and C121 on the rank and the cutoff (C126_solve_partial, C126_kernel_partial), for every procedure that satisfies FactorsPerm; C126_size: fewer rows on the right than unknowns. Missing: _mzd_ple itself is not modelled."
 },
 "C127": {
  "status": "partial",
  "note": "False for matrices without columns, where the program divides by zero (C127_no_columns_violated); the full statement is C127_statement, its negation C127_violated. Right for all others with rank at most 512 or a multiple of 64 (C127_echelon_partial), for every procedure that satisfies FactorsPerm; C127_same: the result is that of mzd_echelonize_naive(A, 1). Missing: ranks above 512 that are not multiples of 64 (the triangular solver of C114 then multiplies windows with other bits behind their last column), and _mzd_ple itself."
 },
 "C128": {
  "status": "partial",
  "note": "False for windows: in the rows without pivots the columns behind the matrix, up to the end of the word of column n1 + r2 - 1, are set to zero (C128_behind_violated, for all such matrices); the full statement is C128_statement, its negation C128_violated. The matrix itself is always compressed as stated and outside of those bits nothing changes (C128_compress_partial); matrices with zero unused bits keep them (C128_clean). The cut n1 is a multiple of 64 and less than the number of columns, as in the only call."
 },
 "C129": {
  "status": "partial",
  "note": "False: with an offset c between 0 and 64 mzd_row_clear_offset clears the columns before c and leaves those from c to 63 (C129_clear_violated, for all matrices); above 64 it shifts by 64 or more unless c is a multiple of 64 (C129_shift_violated), and it clears the unused bits of the last word. mzd_copy_row accesses a word before the row without columns (C129_no_columns_violated). The full statement is C129_statement, its negation C129_violated. Right: offsets that are multiples of 64 (C129_clear_partial), copying rows of matrices with columns (C129_copy_partial), rows that are too long (C129_copy_size)."
 },
 "C130": {
  "status": "partial",
  "note": "False for two matrices with rows and without columns, where a word before the row is accessed (C130_no_columns_violated); the full statement is C130_statement, its negation C130_violated. Right for all others (C130_equal_partial), for different sizes (C130_size) and for a matrix and itself (C130_same)."
 },
 "C131": {
  "status": "partial",
  "note": "False if the number of columns is a multiple of 64 above 64: the last 64 columns are neither counted nor part of the total (C131_last_word_violated, for all such matrices); the full statement is C131_statement, its negation C131_violated. Right for all other numbers of columns (C131_density_partial). m4ri_bitcount is right for all words (C131_bitcount). Without rows 0 is divided by 0 (C131_no_rows). The model returns the two numbers that are divided."
 },
 "C132": {
  "status": "partial",
  "note": "False for mzd_and_bits: it takes the highest n bits of the word and clears all other bits of the one or two words that the group lies in (C132_and_violated, for all matrices), and shifts by 64 for n = 0 (C132_and_empty_violated); the full statement is C132_statement, its negation C132_violated. Right: reading (C132_read), clearing (C132_clear), adding (C132_xor), and mzd_and_bits for whole words (C132_and_partial)."
 },
 "C133": {
  "status": "partial",
  "note": "False: rotate_word shifts by 64 - w instead of 64 - shift, which is defined only if the sum of the words of each row is a number from 1 to 64 (C133_defined, both directions; C133_undefined_violated), so never with a row of zeros (C133_zero_row_violated); bits behind the last column change the value (C133_window_violated). The full statement is C133_statement, its negation C133_violated. Right: with zeros behind the last column matrices with the same entries have the same hash or both none (C133_same_partial)."
 },
 "C134": {
  "status": "proved",
  "note": "For all words and all increasing tables. Other lengths end the program (C134_length). The order is needed: an entry below base + k at place k makes a shift negative (C134_order)."
 },
 "C135": {
  "status": "proved",
  "note": "For all words and all buffers of the size stated in the source; a smaller buffer is shown to be overrun in an example."
 },
 "C136": {
  "status": "partial",
  "note": "False for matrices with rows and without columns, where the word before the row is accessed (C136_no_columns_violated); the full statement is C136_statement, its negation C136_violated. Right for all others (C136_print_partial, C136_row); the text determines the matrix (C136_injective)."
 },
 "C137": {
  "status": "partial",
  "note": "False: the check has no lower bounds. If the first number is positive, row -1 is written to (C137_first_violated), and a zero makes a shift negative (C137_zero_violated); the full statement is C137_statement, its negation C137_violated. Right: all lists that describe a matrix (C137_read_partial), columns and rows that are too large (C137_column_partial, C137_row_partial), headers (C137_header). A row of zeros before one with entries cannot be described at all (C137_zero_rows)."
 },
 "C138": {
  "status": "partial",
  "note": "False: m4ri_coin_flip compares with RAND_MAX/2, which is rounded down, so for no value of RAND_MAX is the bit evenly distributed (C138_coin_violated), and mzd_randomize_custom uses word -1 of a matrix without columns (C138_empty_violated); the full statement is C138_statement, its negation C138_violated. Right: the exact bias (C138_coin_partial), words with _MSC_VER (C138_word), matrices with columns (C138_custom_partial)."
 },
 "C139": {
  "status": "proved",
  "note": "Unloading (C139_fini), the memory of the code book (C139_live, C139_apart), loading (C139_init, C139_twice), the blocks of the program (C139_program, C139_free). malloc never fails, one thread."
 },
 "C140": {
  "status": "partial",
  "note": "False: a row that is added to itself loses the bits behind the last column, because they are restored from the row that was just cleared (C140_itself_violated), and groups of 32 bits and more can give a negative index (C140_negative_violated); the full statement is C140_statement, its negation C140_violated. Right: two different rows (C140_add_partial), up to 31 bits (C140_index_partial), the assertion (C140_assert)."
 }
}