{
 "claims": [
  {
   "property": "C01",
   "status": "proved",
   "theorems": [
    "Sponge.C01_absorb_chunking",
    "Sponge.C01_absorb_fast_irrelevant"
   ],
   "note": "from any reachable absorbing instance; any SnP obeying its documented contract"
  },
  {
   "property": "C02",
   "status": "proved",
   "theorems": [
    "Sponge.C02_squeeze_chunking"
   ],
   "note": "from any reachable instance"
  },
  {
   "property": "C03",
   "status": "proved",
   "theorems": [
    "Sponge.C03_sponge_is_FIPS202"
   ],
   "note": "bit-level FIPS 202 Algorithm 8/9, any permutation"
  },
  {
   "property": "C04",
   "status": "proved",
   "theorems": [
    "Sponge.C04_one_shot_eq_incremental"
   ],
   "note": ""
  },
  {
   "property": "C05",
   "status": "proved",
   "theorems": [
    "Sponge.C05_init_iff",
    "Sponge.C05_late_calls",
    "Sponge.C05_phases"
   ],
   "note": "parameters on 32-bit words"
  },
  {
   "property": "C06",
   "status": "proved",
   "theorems": [
    "Sponge.C06_no_out_of_bounds",
    "Sponge.C06_output_length"
   ],
   "note": "undefined behaviour is `none` in the model"
  },
  {
   "property": "C07",
   "status": "proved",
   "theorems": [
    "Sponge.C07_padding_injective"
   ],
   "note": ""
  },
  {
   "property": "C08",
   "status": "proved",
   "theorems": [
    "KeccakHash.C08_hash_is_sponge"
   ],
   "note": ""
  },
  {
   "property": "C09",
   "status": "proved",
   "theorems": [
    "KeccakHash.C09_init_iff",
    "KeccakHash.C09_no_ub",
    "KeccakHash.C09_errors"
   ],
   "note": ""
  },
  {
   "property": "C10",
   "status": "proved",
   "theorems": [
    "KeccakP1600.C10",
    "KeccakP1600.C10_incremental",
    "KeccakHash.C10_generic",
    "KeccakHash.C10_incremental_generic"
   ],
   "note": "for every SnP implementation that computes Keccak-p[1600,24]; the reference implementation is one (KeccakP1600.Ref.computes)"
  },
  {
   "property": "C11",
   "status": "proved",
   "theorems": [
    "KeccakP1600.C11",
    "TurboSHAKE.C11_generic",
    "TurboSHAKE.C11_incremental"
   ],
   "note": "for every SnP implementation that computes Keccak-p[1600,12]; the reference implementation is one (KeccakP1600.Ref.computes)"
  },
  {
   "property": "C12",
   "status": "proved",
   "theorems": [
    "SP800185.C12_encode_is_SP800185",
    "SP800185.C12_encode_minimal",
    "SP800185.C12_encode_unique"
   ],
   "note": ""
  },
  {
   "property": "C13",
   "status": "proved",
   "theorems": [
    "SP800185.C13_cSHAKE",
    "SP800185.C13_cSHAKE_xof",
    "SP800185.C13_cSHAKE_one_call",
    "SP800185.C13_stray_custom_bits"
   ],
   "note": "for any permutation of 1600 bits; the unused bits of the last byte of the customisation string must be zero (F4)"
  },
  {
   "property": "C14",
   "status": "proved",
   "theorems": [
    "SP800185.C14_KMAC",
    "SP800185.C14_KMACXOF",
    "SP800185.C14_KMAC_one_call"
   ],
   "note": "as C13, also for the key"
  },
  {
   "property": "C16",
   "status": "proved",
   "theorems": [
    "SP800185.C16_TupleHash",
    "SP800185.C16_TupleHashXOF",
    "SP800185.C16_TupleHash_one_call",
    "SP800185.C16_tuple_injective"
   ],
   "note": ""
  },
  {
   "property": "C17",
   "status": "partial",
   "theorems": [
    "SP800185.C17_cSHAKE_discipline",
    "SP800185.C17_init",
    "SP800185.C17_KMAC_discipline",
    "ParallelHash.C17_ParallelHash_discipline",
    "SP800185.C17_TupleHash_discipline_partial",
    "SP800185.C17_TupleHash_midarray",
    "SP800185.C17_TupleHash_midarray_changes"
   ],
   "note": "proved for cSHAKE, KMAC, ParallelHash; for TupleHash two corners are false and stated as such (F6)"
  },
  {
   "property": "C15",
   "status": "partial",
   "theorems": [
    "ParallelHash.C15_ParallelHash_partial",
    "ParallelHash.C15_ParallelHashXOF_partial",
    "ParallelHash.C15_ParallelHash_one_call_partial",
    "ParallelHash.C15_blockLen",
    "ParallelHash.C15_large_blocks_collide",
    "ParallelHash.C15_huge_blocks_undefined"
   ],
   "note": "proved whenever (D-1)*B+rate < 2^32 for every compiled-in parallel degree D; without that bound the statement is false and its negation is proved (F5)"
  },
  {
   "property": "C18",
   "status": "proved",
   "theorems": [
    "KT.C18_KangarooTwelve",
    "KT.C18_KangarooTwelve_xof",
    "KT.C18_KT_one_call",
    "KT.C18_refused"
   ],
   "note": "for any permutation of 1600 bits; message below 2^75 bytes, customisation string below 2^64 bytes; dedicated SIMD leaf functions are assumed to compute the RFC 9861 chaining values"
  },
  {
   "property": "C19",
   "status": "proved",
   "theorems": [
    "KT.C19_rightEncode_unique",
    "KT.C19_length_encode",
    "KT.C19_discipline"
   ],
   "note": "every history of calls with less than 2^75 bytes of input in all"
  },
  {
   "property": "C20",
   "status": "proved",
   "theorems": [
    "Duplex.C20_duplex",
    "Duplex.C20_init_iff"
   ],
   "note": "for calls meeting the documented preconditions; C21 and C22 cover what happens otherwise"
  },
  {
   "property": "C21",
   "status": "partial",
   "theorems": [
    "Duplex.C21_capacity_partial",
    "Duplex.C21_violated"
   ],
   "note": "proved except for Duplexing with trailing bits that do not fit after queued bytes, where the statement is false and its negation is proved (F7)"
  },
  {
   "property": "C22",
   "status": "partial",
   "theorems": [
    "Duplex.C22_further_partial",
    "Duplex.C22_bounds_iff",
    "Duplex.C22_violated",
    "Duplex.C22_queue_violated"
   ],
   "note": "exact set of out-of-bounds calls proved; the statement is false for zero-length requests past the rate (F8) and for positions with queued input (F9)"
  },
  {
   "property": "C23",
   "status": "proved",
   "theorems": [
    "SpongePRG.C23_prg",
    "SpongePRG.C23_init_iff",
    "SpongePRG.C23_feed_append",
    "SpongePRG.C23_fetch_add"
   ],
   "note": ""
  },
  {
   "property": "C24",
   "status": "proved",
   "theorems": [
    "SpongePRG.C24_forget",
    "SpongePRG.C24_forget_erases",
    "SpongePRG.C23_prg"
   ],
   "note": ""
  },
  {
   "property": "C37",
   "status": "partial",
   "theorems": [
    "KeccakP1600.C37_ref",
    "KeccakP1600.C37_ref_KR",
    "KeccakP1600.C37_opt64",
    "KeccakP1600.C37_compact",
    "KeccakP1600.C37_compact_zero",
    "KeccakP1600.C37_ref32",
    "KeccakP1600.C37_inplace32",
    "KeccakP1600.C37_inplace32_zero"
   ],
   "note": "all portable implementations, 0 rounds only for those where it works: with 0 rounds the compact implementation performs 256 rounds (F10) and the 32-bit in-place one reads past its table of constants (F17), both proved"
  },
  {
   "property": "C38",
   "status": "proved",
   "theorems": [
    "KeccakP1600.C38_spec",
    "KeccakP1600.C38_ref",
    "KeccakP1600.C38_opt64",
    "KeccakP1600.C38_32bit",
    "Xoodoo.C38_spec",
    "Xoodoo.C38_ref",
    "Xoodoo.C38_opt"
   ],
   "note": ""
  },
  {
   "property": "C39",
   "status": "proved",
   "theorems": [
    "KeccakP1600.C39_tables",
    "KeccakP1600.C39_opt64",
    "KeccakP1600.C39_tables32",
    "KeccakP1600.Ref32.shifts_defined",
    "Xoodoo.C39_xoodoo"
   ],
   "note": ""
  },
  {
   "property": "C40",
   "status": "proved",
   "theorems": [
    "KeccakP1600.C40_ref",
    "KeccakP1600.C40_compact",
    "KeccakP1600.C40_opt64",
    "KeccakP1600.C40_opt64_view",
    "KeccakP1600.C40_ref32",
    "KeccakP1600.C40_inplace32",
    "KeccakP1600.C40_view32",
    "KeccakP1600.C40_interleaving",
    "Xoodoo.C40_ref",
    "Xoodoo.C40_opt",
    "Xoodoo.C40_opt_view"
   ],
   "note": "little-endian paths"
  },
  {
   "property": "C43",
   "status": "proved",
   "theorems": [
    "KeccakP1600.C43_opt64",
    "KeccakP1600.Opt64.computes24",
    "KeccakP1600.Opt64.computes12"
   ],
   "note": "all compile-time options of the optimised 64-bit implementation, 1 to 25 lanes per block"
  },
  {
   "property": "C42",
   "status": "proved",
   "theorems": [
    "Xoodoo.C42",
    "Xoodoo.C42_ref",
    "Xoodoo.C42_spec"
   ],
   "note": ""
  },
  {
   "property": "C25",
   "status": "proved",
   "theorems": [
    "Xoodyak.C25",
    "Xoodyak.C25_session"
   ],
   "note": ""
  },
  {
   "property": "C26",
   "status": "proved",
   "theorems": [
    "Xoodyak.C26",
    "Xoodyak.C26_xoodyak"
   ],
   "note": ""
  },
  {
   "property": "C27",
   "status": "proved",
   "theorems": [
    "Xoodyak.C27",
    "Xoodyak.C27_absorb",
    "Xoodyak.C27_squeeze",
    "Xoodyak.C27_crypt"
   ],
   "note": ""
  },
  {
   "property": "C28",
   "status": "proved",
   "theorems": [
    "Xoodyak.C28_init",
    "Xoodyak.C28",
    "Xoodyak.C28_run"
   ],
   "note": ""
  },
  {
   "property": "C29",
   "status": "proved",
   "theorems": [
    "Farfalle.C29",
    "Farfalle.C29_independent",
    "Farfalle.kravatte_ok",
    "Farfalle.xoofff_ok"
   ],
   "note": ""
  },
  {
   "property": "C30",
   "status": "proved",
   "theorems": [
    "Farfalle.C30",
    "Farfalle.C30_independent"
   ],
   "note": ""
  },
  {
   "property": "C31",
   "status": "proved",
   "theorems": [
    "Farfalle.C31",
    "Farfalle.C31_farfalle",
    "Farfalle.C31_full",
    "Farfalle.C31_key",
    "Farfalle.kravatte_ok",
    "Farfalle.xoofff_ok",
    "Farfalle.C31_kravatte",
    "Farfalle.C31_xoofff"
   ],
   "note": "output lengths below 2^64 - 7 bits; unused bits of the last input byte must be 0 (F12)"
  },
  {
   "property": "C32",
   "status": "proved",
   "theorems": [
    "Farfalle.C32",
    "Farfalle.C32_reject"
   ],
   "note": "unused bits of the last byte of nonce, associated data and (for Unwrap) ciphertext must be 0 (F14); lengths below 2^64 - 7 bits"
  },
  {
   "property": "C33",
   "status": "proved",
   "theorems": [
    "Farfalle.C33",
    "Farfalle.C33_reject"
   ],
   "note": "lengths below 2^64 - 7 bits"
  },
  {
   "property": "C34",
   "status": "partial",
   "theorems": [
    "Farfalle.C34_partial",
    "Farfalle.C34_onto_partial",
    "Farfalle.C34_false"
   ],
   "note": "proved for data of up to 2^30 blocks of the permutation; beyond, Split has an undefined shift and the negation is proved (F15)"
  },
  {
   "property": "C35",
   "status": "partial",
   "theorems": [
    "Farfalle.C35_partial",
    "Farfalle.C35_reject_partial"
   ],
   "note": "same bound on the length as C34 (F15)"
  },
  {
   "property": "C36",
   "status": "partial",
   "theorems": [
    "Farfalle.C36_partial",
    "Farfalle.IsSplit_unique",
    "Farfalle.C36_false"
   ],
   "note": "proved for data of up to 2^30 blocks; beyond, the negation is proved (F15)"
  },
  {
   "property": "C44",
   "status": "partial",
   "theorems": [
    "KeccakHash.C44_hash",
    "SP800185.C44_cSHAKE_message",
    "Farfalle.C44_farfalle_key",
    "Farfalle.C44_sanse",
    "Farfalle.C44_wbc_data",
    "Farfalle.C44_farfalle_false",
    "Farfalle.C44_farfalle_collision",
    "Farfalle.C44_sane_collision",
    "SP800185.C13_stray_custom_bits"
   ],
   "note": "holds for Keccak_HashUpdate, the cSHAKE message, the Farfalle key, SANSE and WBC data; false for Farfalle input strings, SANE (F12, F14) and the customisation strings and KMAC keys of SP 800-185 (F4), where the negation is proved"
  },
  {
   "property": "C41",
   "status": "partial",
   "theorems": [
    "PlSnPFallback.C41_single",
    "PlSnPFallback.C41_parallel",
    "PlSnPFallback.C41_parallel_degree",
    "PlSnPFallback.C41_nested",
    "PlSnPFallback.C41_layout",
    "PlSnPFallback.refSingle_ok",
    "PlSnPFallback.opt64Single_ok",
    "PlSnPFallback.C41_fastLoop_partial",
    "PlSnPFallback.C41_fastLoop_false"
   ],
   "note": "the fallback layers are proved for every function; for the fast loop the statement needs laneOffsetSerial <= (D-1)*laneOffsetParallel+laneCount and its negation is proved without (F16)"
  },
  {
   "property": "C45",
   "status": "partial",
   "theorems": [
    "ParallelSimd.C45_times2",
    "ParallelSimd.C45_times4",
    "ParallelSimd.C45_view",
    "ParallelSimd.C45_fallback",
    "ParallelSimd.C45_fastLoop_times2_partial",
    "ParallelSimd.C45_fastLoop_times4_partial",
    "ParallelSimd.C45_fastLoop12_times4_partial",
    "ParallelSimd.C45_fastLoop_model",
    "ParallelSimd.C45_fastLoop_times2_false",
    "ParallelSimd.C45_fastLoop_times4_false"
   ],
   "note": "every function proved for the SSSE3/XOP and AVX2 implementations; for the fast loops the statement needs laneOffsetSerial <= (D-1)*laneOffsetParallel+laneCount and the negation is proved without (F16)"
  },
  {
   "property": "C46",
   "status": "proved",
   "theorems": [
    "KravatteSimd.C46_compress",
    "KravatteSimd.C46_expand",
    "KravatteSimd.C46_path",
    "KravatteSimd.C46_kravatte",
    "KravatteSimd.C46_full",
    "KravatteSimd.C46_i386_false"
   ],
   "note": "for targets other than i386; on i386 the negation is proved (F18)"
  },
  {
   "property": "C47",
   "status": "proved",
   "theorems": [
    "XoodooSimd.C47_permutations",
    "XoodooSimd.C47_times4",
    "XoodooSimd.C47_times8",
    "XoodooSimd.C47_avx512",
    "XoodooSimd.C47_permuteAll",
    "XoodooSimd.C47_view",
    "XoodooSimd.C47_fallback"
   ],
   "note": "all PlSnP functions of the five implementations"
  },
  {
   "property": "C48",
   "status": "proved",
   "theorems": [
    "XoofffSimd.C48_compress",
    "XoofffSimd.C48_expand",
    "XoofffSimd.C48_path",
    "XoofffSimd.C48_xoofff",
    "XoofffSimd.C48_full",
    "XoofffSimd.C48_addIs"
   ],
   "note": "the AVX2 file and the three AVX-512 files"
  },
  {
   "property": "C49",
   "status": "partial",
   "theorems": [
    "KeccakAvx512.C49_times",
    "KeccakAvx512.C49_fallback",
    "KeccakAvx512.C49_fastLoop_partial",
    "KeccakAvx512.C49_fastLoop12_partial",
    "KeccakAvx512.C49_fastLoop_model",
    "KeccakAvx512.C49_fastLoop_false",
    "KeccakAvx512.C49_processLeaves",
    "KeccakAvx512.C49_cfg",
    "KeccakAvx512.C49_KangarooTwelve"
   ],
   "note": "all proved but for the fast loops, which need the condition that the pointer moves by no more than the data of an iteration; the negation is proved without it (F16)"
  },
  {
   "property": "C50",
   "status": "partial",
   "theorems": [
    "XoodooPlanes.C50_permute",
    "XoodooPlanes.C50_permute_spec",
    "XoodooPlanes.C50_access",
    "XoodooPlanes.C50_absorb",
    "XoodooPlanes.C50_squeeze",
    "XoodooPlanes.C50_encrypt",
    "XoodooPlanes.C50_decrypt_partial",
    "XoodooPlanes.C50_decrypt_inplace",
    "XoodooPlanes.C50_decrypt_inplace_false",
    "XoodooPlanes.C50_compress",
    "XoodooPlanes.C50_expand",
    "XoodooPlanes.C50_path",
    "XoodooPlanes.C50_xoofff",
    "XoodooPlanes.C50_addIs"
   ],
   "note": "all proved but for decryption in place, where the code leaves another state than the plain implementation; the negation is proved (F22)"
  },
  {
   "property": "C51",
   "status": "proved",
   "theorems": [
    "Xop.C51_access",
    "Xop.C51_permute",
    "Xop.C51_computes",
    "Plane512.C51_access",
    "Plane512.C51_permute",
    "Plane512.C51_fastLoop",
    "Plane512.C51_computes"
   ],
   "note": "the XOP and the AVX-512 C implementation of one state"
  },
  {
   "property": "C52",
   "status": "proved",
   "theorems": [
    "KravatteSimd512.C52_compress",
    "KravatteSimd512.C52_expand",
    "KravatteSimd512.C52_path",
    "KravatteSimd512.C52_kravatte",
    "KravatteSimd512.C52_full",
    "KravatteSimd512.C52_i386_false"
   ],
   "note": "for targets other than i386; on i386 the negation is proved for compression (F23)"
  },
  {
   "property": "C53",
   "status": "proved",
   "theorems": [
    "Compact202.C53_permutations",
    "Compact202.C53_readable",
    "Compact202.C53_more",
    "Compact202.C53_tweet",
    "Compact202.C53_tweet_suffix",
    "Compact202.C53_more_functions",
    "Compact202.C53_tweet_functions",
    "Compact202.C53_readable_functions",
    "Compact202.C53_readable_defined",
    "Compact202.C53_readable_bad_rate",
    "Compact202.C53_readable_negative",
    "Compact202.C53_more_defined",
    "Compact202.C53_stub",
    "Compact202.C53_stub_accepts"
   ],
   "note": "little-endian code paths (the byte-wise load, store and xor are the portable ones); F24 to F26 are the corners outside the statement"
  },
  {
   "property": "C54",
   "status": "proved",
   "theorems": [
    "K12Rust.C54_permutation",
    "K12Rust.C54_F",
    "K12Rust.C54_right_encode",
    "K12Rust.C54_KangarooTwelve",
    "K12Rust.C54_agrees",
    "K12Rust.C54_defined"
   ],
   "note": "64-bit little-endian targets; alignment of the lane reads is not modelled (F28)"
  },
  {
   "property": "C55",
   "status": "proved",
   "theorems": [
    "Py202.C55_permutations",
    "Py202.C55_keccak",
    "Py202.C55_none",
    "Py202.C55_functions",
    "Py202.C55_agree",
    "Py202.C55_suffix",
    "Py202.C55_defined"
   ],
   "note": "little-endian platform for the numpy version; integer and byte-string arguments"
  },
  {
   "property": "C56",
   "status": "partial",
   "theorems": [
    "Avx2Asm.C56_layout",
    "Avx2Asm.C56_access",
    "Avx2Asm.C56_initialize",
    "Avx2Asm.C56_permute_partial",
    "Avx2Asm.C56_permute_zero",
    "Avx2Asm.C56_fastLoop",
    "Avx2Asm.C56_computes"
   ],
   "note": "proved for 1 to 24 rounds, 24 and 12 included; with nr = 0, where KECCAK-p is the identity, the code has no defined result (negation proved, F30)"
  },
  {
   "property": "C57",
   "status": "proved",
   "theorems": [
    "Avx512Asm.C57_access",
    "Avx512Asm.C57_initialize",
    "Avx512Asm.C57_permute",
    "Avx512Asm.C57_fastLoop",
    "Avx512Asm.C57_computes"
   ],
   "note": "instruction by instruction; the meaning of the instructions is trusted, see DESIGN.md"
  },
  {
   "property": "C58",
   "status": "partial",
   "theorems": [
    "KeccakSum.C58_hex",
    "KeccakSum.C58_base64",
    "KeccakSum.C58_partial",
    "KeccakSum.C58_not_reset",
    "KeccakSum.C58_not_reset_k12",
    "KeccakSum.C58_hex_limit"
   ],
   "note": "the encoders are proved for all inputs; the program for all command lines in which no option of the Keccak family follows one of KangarooTwelve or ParallelHash and for all lengths that can be displayed; otherwise it is false (negations proved, F31, F32); block lengths of ParallelHash as in C15"
  },
  {
   "property": "C59",
   "status": "partial",
   "theorems": [
    "X64Asm.C59_access",
    "X64Asm.C59_initialize",
    "X64Asm.C59_addByte",
    "X64Asm.C59_permute_partial",
    "X64Asm.C59_permute_zero",
    "X64Asm.C59_fastLoop_partial",
    "X64Asm.C59_fastLoop_25",
    "X64Asm.C59_computes"
   ],
   "note": "proved for 1 to 24 rounds and, in the fast loop, for 1 to 24 lanes; with no rounds and with 25 lanes the code leaves its tables and the state (negations proved, F34, F35)"
  },
  {
   "property": "C60",
   "status": "partial",
   "theorems": [
    "Armv8Asm.C60_access",
    "Armv8Asm.C60_initialize",
    "Armv8Asm.C60_permute_partial",
    "Armv8Asm.C60_permute_zero",
    "Armv8Asm.C60_computes"
   ],
   "note": "proved for 1 to 24 rounds; with no rounds the code reads past its table (negation proved, F36); the meaning of the instructions is trusted, see DESIGN.md"
  },
  {
   "property": "C61",
   "status": "proved",
   "theorems": [
    "Supercop.C61_encrypt",
    "Supercop.C61_decrypt",
    "Supercop.C61_round_trip",
    "Supercop.C61_xoodyak_hash",
    "Supercop.C61_xoodyak",
    "Supercop.C61_sha3"
   ],
   "note": "KangarooTwelve/K12.c does not compile against the header (F37) and is not covered; buffers do not overlap, as CRYPTO_NOOVERLAP asks for"
  },
  {
   "property": "C62",
   "status": "proved",
   "theorems": [
    "XoodooArm.C62_permute",
    "XoodooArm.C62_permute_spec",
    "XoodooArm.C62_access",
    "XoodooArm.C62_absorb",
    "XoodooArm.C62_squeeze",
    "XoodooArm.C62_crypt",
    "XoodooArm.C62_compress",
    "XoodooArm.C62_expand",
    "XoodooArm.C62_path",
    "XoodooArm.C62_xoofff",
    "XoodooArm.C62_addIs"
   ],
   "note": "the meaning of the instructions is trusted, see DESIGN.md; full-block functions are covered for at least one block, with which they are called"
  },
  {
   "property": "C63",
   "status": "partial",
   "theorems": [
    "KeccakP1600.Arm32.C63_permute_partial",
    "KeccakP1600.Arm32.C63_zero",
    "KeccakP1600.Arm32.C63_same_words",
    "KeccakP1600.Arm32.C63_access_armv7m",
    "KeccakP1600.Arm32.C63_access_armv7a",
    "KeccakP1600.Arm32.computes",
    "KeccakP1600.Arm32.C63_SHA3_256"
   ],
   "note": "proved for 1 to 24 rounds; with no rounds the code reads past its table (negation proved, F38); the meaning of the instructions is trusted, see DESIGN.md"
  },
  {
   "property": "C64",
   "status": "partial",
   "theorems": [
    "KeccakP1600.Arm6.C64_permute_partial",
    "KeccakP1600.Arm6.C64_zero",
    "KeccakP1600.Arm6.C64_same_words",
    "KeccakP1600.Arm6.C64_access",
    "KeccakP1600.Arm6.computes",
    "KeccakP1600.Arm6.C64_SHA3_256"
   ],
   "note": "proved for 1 to 24 rounds; with no rounds the code reads past its table (negation proved, F38); the meaning of the instructions is trusted, see DESIGN.md"
  },
  {
   "property": "C65",
   "status": "partial",
   "theorems": [
    "KeccakP1600.Arm6U.C65_u1_partial",
    "KeccakP1600.Arm6U.C65_u2_partial",
    "KeccakP1600.Arm6U.C65_zero",
    "KeccakP1600.Arm6U.C65_same_words",
    "KeccakP1600.Arm6U.computes",
    "KeccakP1600.Arm6U.C65_SHA3_256",
    "KeccakP1600.Arm6.C64_access"
   ],
   "note": "proved for 1 to 24 rounds; with no rounds both programs read past their table (negation proved, F38); the meaning of the instructions is trusted, see DESIGN.md"
  },
  {
   "property": "C66",
   "status": "partial",
   "theorems": [
    "XoodooArm6.C66_permute",
    "XoodooArm6.C66_permute_spec",
    "XoodooArm6.C66_zero",
    "XoodooArm6.C66_access",
    "XoodooArm6.C66_extract",
    "XoodooArm6.C66_absorb",
    "XoodooArm6.C66_squeeze",
    "XoodooArm6.C66_crypt_partial",
    "XoodooArm6.C66_crypt_fault",
    "XoodooArm6.C66_compress",
    "XoodooArm6.C66_expand",
    "XoodooArm6.C66_path",
    "XoodooArm6.C66_xoofff",
    "XoodooArm6.C66_addIs"
   ],
   "note": "proved except for encryption and decryption with pointers of which one is misaligned and no low bit is set in both (negation proved, F39) and for 0 rounds (negation proved, F38); the meaning of the instructions is trusted, see DESIGN.md"
  },
  {
   "property": "C67",
   "status": "proved",
   "theorems": [
    "XoodooNeon.C67_permute",
    "XoodooNeon.C67_permute_spec",
    "XoodooNeon.C67_access",
    "XoodooNeon.C67_absorb",
    "XoodooNeon.C67_squeeze",
    "XoodooNeon.C67_crypt",
    "XoodooNeon.C67_compress",
    "XoodooNeon.C67_expand",
    "XoodooNeon.C67_path",
    "XoodooNeon.C67_xoofff",
    "XoodooNeon.C67_addIs"
   ],
   "note": "functions on full blocks with at least one block; encryption and decryption for output not starting inside the input after its begin; the meaning of the instructions is trusted, see DESIGN.md"
  },
  {
   "property": "C68",
   "status": "partial",
   "theorems": [
    "KeccakNeon.C68_access",
    "KeccakNeon.C68_initialize",
    "KeccakNeon.C68_permute_partial",
    "KeccakNeon.C68_permute_zero",
    "KeccakNeon.C68_computes"
   ],
   "note": "proved for 1 to 24 rounds; with no rounds the code reads past its table (negation proved, F38); the meaning of the instructions is trusted, see DESIGN.md"
  },
  {
   "property": "C69",
   "status": "proved",
   "theorems": [
    "Times2Neon.C69_independent",
    "Times2Neon.C69_permute",
    "Times2Neon.C69_addresses",
    "Times2Neon.C69_fallback"
   ],
   "note": "buffers that do not overlap; for the functions that write lanes, pieces that do not overlap; the meaning of the instructions is trusted, see DESIGN.md"
  },
  {
   "property": "C70",
   "status": "partial",
   "theorems": [
    "XoodooTimes4Neon.C70_independent",
    "XoodooTimes4Neon.C70_permute",
    "XoodooTimes4Neon.C70_fallback",
    "XoodooTimes4Neon.C70_clobbers",
    "XoodooTimes4Neon.C70_registers_fails",
    "XoodooTimes4Neon.C70_registers_partial"
   ],
   "note": "everything except the registers is proved; the registers q4 to q7 are not preserved by the branch of Xoodootimes4_AddLanesAll for 12 lanes (finding F40, proved), C70_registers_partial covers all other calls; buffers that do not overlap; the meaning of the instructions is trusted, see DESIGN.md"
  },
  {
   "property": "C71",
   "status": "proved",
   "theorems": [
    "XoodooTimes4Neon.C71_compress",
    "XoodooTimes4Neon.C71_expand",
    "XoodooTimes4Neon.C71_path",
    "XoodooTimes4Neon.C71_xoofff",
    "XoodooTimes4Neon.C71_addIs"
   ],
   "note": "buffers that do not overlap; fast loops with at least four blocks, as the caller ensures; C71_path and C71_xoofff for data at a multiple of 4, C71_compress and C71_expand for every address; the meaning of the instructions is trusted, see DESIGN.md"
  },
  {
   "property": "C72",
   "status": "proved",
   "theorems": [
    "Avr8.C72_initialize",
    "Avr8.C72_addByte",
    "Avr8.C72_addBytes",
    "Avr8.C72_overwriteBytes",
    "Avr8.C72_overwriteWithZeroes",
    "Avr8.C72_extractBytes",
    "Avr8.C72_extractAndAddBytes",
    "Avr8.C72_state"
   ],
   "note": "states and buffers at addresses from 0x60 on that do not wrap around; source buffers disjoint from the destination or not before it; the meaning of the instructions is trusted, see DESIGN.md"
  },
  {
   "property": "C73",
   "status": "partial",
   "theorems": [
    "Avr8.Keccak.C73_permute_partial",
    "Avr8.Keccak.C73_permute_zero",
    "Avr8.Keccak.C73_permute_wraps"
   ],
   "note": "proved for 1 to 24 rounds; false for no rounds, which reads behind the table (F41); the state and the stack do not overlap; the meaning of the instructions is trusted, see DESIGN.md"
  },
  {
   "property": "C74",
   "status": "partial",
   "theorems": [
    "Avr8.Xoodoo.C74_permute_partial",
    "Avr8.Xoodoo.C74_permute_zero",
    "Avr8.Xoodoo.C74_zero_changes",
    "Avr8.Xoodoo.C74_permute_wraps"
   ],
   "note": "proved for 1 to 12 rounds; false for no rounds, which reads behind the table (F42); the instructions for the four bytes of a lane are grouped in the model; the meaning of the instructions is trusted, see DESIGN.md"
  },
  {
   "property": "C75",
   "status": "partial",
   "theorems": [
    "Avr8.Fast.C75_permute_partial",
    "Avr8.Fast.C75_permute_zero"
   ],
   "note": "proved for 1 to 24 rounds; false for no rounds, which reads behind the table (F43); the meaning of the instructions is trusted, see DESIGN.md"
  },
  {
   "property": "C76",
   "status": "partial",
   "theorems": [
    "Avr8.Fast.C76_interrupt_partial",
    "Avr8.Fast.C76_interrupt_changes"
   ],
   "note": "false: the first byte of the parities is at the stack pointer, and an interrupt before theta replaces it (F44); proved for an interrupt between theta and rho; other points are not covered"
  }
 ]
}