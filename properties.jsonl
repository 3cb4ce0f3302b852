{"id": "C01", "title": "Incremental absorb is independent of chunking", "statement": "After a successful SpongeInitialize, feeding a message through any sequence of SpongeAbsorb calls (any number of calls, any piece lengths including zero) leaves the instance in exactly the state reached by feeding the concatenation in one call, and every call returns 0. The result does not depend on whether the build uses the fast-loop path.", "quantifier": "every permutation, every accepted rate, every message, every partition of it into pieces, both build configurations (with/without FastLoop_Absorb)", "why_tests_cant": "The number of partitions is exponential in the message length and the buffering/fast-path decision depends on the residual index, so a finite set of splits never covers all boundary combinations.", "anchors": ["lib/high/Keccak/KeccakSponge.inc: SpongeInitialize, SpongeAbsorb", "lib/low/KeccakP-1600/plain-64bits/KeccakP-1600-opt64.c: KeccakF1600_FastLoop_Absorb"]}
{"id": "C02", "title": "Squeezing is independent of chunking", "statement": "After absorbing, any sequence of SpongeSqueeze calls with lengths n1, n2, ... returns consecutive pieces of one and the same output stream: the concatenation of the outputs equals a single squeeze of n1+n2+... bytes and the final instance is observationally the same.", "quantifier": "every permutation, rate, absorbed history, and every list of output lengths", "why_tests_cant": "Infinitely many length sequences; off-by-one errors at the rate boundary only show for particular residues.", "anchors": ["lib/high/Keccak/KeccakSponge.inc: SpongeSqueeze"]}
{"id": "C03", "title": "The sponge API computes the FIPS 202 sponge function", "statement": "For every accepted rate, message, non-zero delimited suffix and output length, Initialize+Absorb*+AbsorbLastFewBits+Squeeze* outputs exactly SPONGE[f, pad10*1, r](M || suffix bits, d) as defined at bit level in FIPS 202 (pad, split in r-bit blocks, xor, permute, truncate).", "quantifier": "all permutations f of the given width, all rates multiple of 8 bits up to the width, all byte messages, all 255 suffix bytes, all output lengths", "why_tests_cant": "A mismatch may exist only for a specific (length mod rate, suffix) combination, e.g. when the first padding bit is the last bit of the block.", "anchors": ["lib/high/Keccak/KeccakSponge.inc: SpongeAbsorb, SpongeAbsorbLastFewBits, SpongeSqueeze", "doc/KeccakSponge-documentation.h"]}
{"id": "C04", "title": "One-shot Sponge equals the incremental API", "statement": "Sponge(rate, capacity, input, suffix, outLen) returns 0 and produces the same bytes as Initialize; Absorb(input); AbsorbLastFewBits(suffix); Squeeze(outLen), and it rejects exactly the parameter triples (rate, capacity, suffix) that the incremental API rejects.", "quantifier": "all 32-bit rate and capacity values, all suffix bytes, all inputs and output lengths, with and without the fast loop", "why_tests_cant": "Two separately written code paths that must agree on every length and rate.", "anchors": ["lib/high/Keccak/KeccakSponge.inc: Sponge, SpongeInitialize"]}
{"id": "C05", "title": "Sponge call-order discipline", "statement": "In the squeezing phase SpongeAbsorb and SpongeAbsorbLastFewBits return 1 and leave the instance untouched; AbsorbLastFewBits with 0x00 returns 1 and leaves the instance untouched; SpongeSqueeze in the absorbing phase behaves as AbsorbLastFewBits(0x01) followed by Squeeze; initialisation succeeds iff rate+capacity equals the width as integers (no 32-bit wraparound), 0<rate and 8 | rate.", "quantifier": "every instance state, every argument, all 2^64 pairs (rate, capacity)", "why_tests_cant": "Quantifies over all instances/histories and over all 32-bit parameter pairs, including wrapping sums.", "anchors": ["lib/high/Keccak/KeccakSponge.inc: SpongeInitialize, SpongeAbsorb, SpongeAbsorbLastFewBits, SpongeSqueeze"]}
{"id": "C06", "title": "No sponge call history accesses memory outside the state or the caller buffers", "statement": "From a successfully initialised instance, every finite sequence of SpongeAbsorb / SpongeAbsorbLastFewBits / SpongeSqueeze calls with arbitrary arguments terminates without reading or writing outside the permutation state or the caller-provided buffers, and keeps the buffer index within the rate.", "quantifier": "every finite call history with arbitrary arguments", "why_tests_cant": "Safety invariant over unbounded histories.", "anchors": ["lib/high/Keccak/KeccakSponge.inc: SpongeAbsorb, SpongeAbsorbLastFewBits, SpongeSqueeze"]}
{"id": "C07", "title": "Padding is injective", "statement": "Two different (message, suffix-bits) inputs never lead to the same sequence of absorbed rate-size blocks for the same rate; in particular the delimited suffix byte and padding never merge two distinct inputs.", "quantifier": "all pairs of distinct messages and suffix bytes and every rate of at least one byte", "why_tests_cant": "Pairs of inputs of unbounded length.", "anchors": ["lib/high/Keccak/KeccakSponge.inc: SpongeAbsorbLastFewBits"]}
{"id": "C08", "title": "Keccak_Hash hashes exactly the given bits followed by the suffix", "statement": "For any sequence of Keccak_HashUpdate calls in which all but the last have a byte-aligned length and the last may have any bit length, Keccak_HashFinal outputs the FIPS 202 sponge applied to the concatenated message bits followed by the suffix bits; unused high bits of the last byte have no influence.", "quantifier": "all bit strings, all chunkings, all 255 suffix bytes, all accepted rates, all hash lengths that are a multiple of 8", "why_tests_cant": "All 7x255 shift combinations times unbounded messages and chunkings.", "anchors": ["lib/high/Keccak/FIPS202/KeccakHash.c: Keccak_HashInitialize, Keccak_HashUpdate, Keccak_HashFinal, Keccak_HashSqueeze"]}
{"id": "C09", "title": "Keccak_Hash error behaviour", "statement": "Keccak_HashInitialize fails iff the suffix is 0 or the rate/capacity pair is invalid; updates and a second HashFinal after HashFinal fail and change nothing; HashSqueeze with a length that is not a multiple of 8 fails and changes nothing.", "quantifier": "every instance reachable by any call history, every argument", "why_tests_cant": "All histories.", "anchors": ["lib/high/Keccak/FIPS202/KeccakHash.c: Keccak_HashInitialize, Keccak_HashUpdate, Keccak_HashFinal, Keccak_HashSqueeze"]}
{"id": "C10", "title": "SHA-3 and SHAKE one-shot functions are the FIPS 202 functions", "statement": "SHA3_224/256/384/512 and SHAKE128/256 return 0 and output KECCAK[c](M||01,d) resp. KECCAK[c](M||1111,d) with the standard's capacities and lengths, with Keccak-f[1600] itself as specified in FIPS 202 (theta, rho, pi, chi, iota with LFSR round constants).", "quantifier": "all input messages and output lengths", "why_tests_cant": "Known-answer tests only cover a few messages.", "anchors": ["lib/high/Keccak/FIPS202/SimpleFIPS202.c: SHAKE128, SHAKE256, SHA3_224, SHA3_256, SHA3_384, SHA3_512", "lib/low/KeccakP-1600/ref-64bits/KeccakP-1600-reference.c"]}
{"id": "C11", "title": "TurboSHAKE incremental and one-shot agree and follow the specification", "statement": "TurboSHAKE(capacity, M, D, d) returns 0 iff capacity<=512, 8|capacity and D != 0, and then outputs the sponge over Keccak-p[1600,12] of M followed by D's bits; every split of absorb and squeeze calls gives the same stream.", "quantifier": "all 32-bit capacities, all messages, all domain bytes, all chunkings", "why_tests_cant": "Unbounded inputs and chunkings.", "anchors": ["lib/high/TurboSHAKE/TurboSHAKE.c: TurboSHAKE, TurboSHAKE_Initialize, TurboSHAKE_Absorb, TurboSHAKE_AbsorbDomainSeparationByte, TurboSHAKE_Squeeze"]}
{"id": "C12", "title": "left_encode / right_encode are the SP 800-185 encodings", "statement": "For every 64-bit length the bytes produced are the standard's left_encode / right_encode (minimal big-endian length, at least one byte), they fit the 9-byte buffers, are uniquely decodable, and prefix-free (left) / suffix-free (right).", "quantifier": "all 2^64 length values", "why_tests_cant": "2^64 values and pairs of values.", "anchors": ["lib/high/Keccak/SP800-185/SP800-185.c: left_encode, right_encode"]}
{"id": "C13", "title": "cSHAKE computes SP 800-185 cSHAKE for every call pattern", "statement": "cSHAKE128/256 one-shot and Initialize/Update*/Final/Squeeze* produce KECCAK[c](bytepad(encode_string(N)||encode_string(S), rate)||X||00, L) (or SHAKE when N and S are both empty), for inputs of any bit length and any byte-aligned chunking.", "quantifier": "all N, S (byte aligned, or with zero unused bits), X, L, all chunkings, both security levels", "why_tests_cant": "Unbounded strings and chunkings; padding of the prefix to the rate depends on total length.", "anchors": ["lib/high/Keccak/SP800-185/SP800-185.inc: cSHAKE, cSHAKE_Initialize, cSHAKE_Update, cSHAKE_Final, cSHAKE_Squeeze"]}
{"id": "C14", "title": "KMAC computes SP 800-185 KMAC / KMACXOF for every call pattern", "statement": "KMAC128/256 output = cSHAKE(bytepad(encode_string(K), rate)||X||right_encode(L), L, \"KMAC\", S), with right_encode(0) when the XOF form is used, for every key, message chunking and customization.", "quantifier": "all keys, messages, customization strings, output lengths, chunkings", "why_tests_cant": "Unbounded inputs.", "anchors": ["lib/high/Keccak/SP800-185/SP800-185.inc: KMAC, KMAC_Initialize, KMAC_Update, KMAC_Final, KMAC_Squeeze"]}
{"id": "C15", "title": "ParallelHash is independent of chunking and of the available SIMD parallelism", "statement": "ParallelHash128/256 computes SP 800-185 ParallelHash for every block size B, every input and every partition of the input into Update calls, whatever combination of 2-/4-/8-way parallel permutations is compiled in.", "quantifier": "all block sizes, inputs, customization strings, output lengths, chunkings, and all parallelism configurations", "why_tests_cant": "Schedules of partially filled blocks are unbounded, configurations change the control flow.", "anchors": ["lib/high/Keccak/SP800-185/SP800-185.inc: ParallelHash, ParallelHash_Initialize, ParallelHash_Update, ParallelHash_Final, ParallelHash_Squeeze, ParallelSpongeLoop macros"]}
{"id": "C16", "title": "TupleHash computes SP 800-185 TupleHash and its encoding of tuples is injective", "statement": "TupleHash hashes encode_string(X1)||...||encode_string(Xn)||right_encode(L) through cSHAKE with N=\"TupleHash\"; splitting a tuple sequence over several Update calls does not matter, and different tuples are never encoded to the same string.", "quantifier": "all tuples of bit strings, all groupings into Update calls", "why_tests_cant": "All pairs of tuples.", "anchors": ["lib/high/Keccak/SP800-185/SP800-185.inc: TupleHash, TupleHash_Initialize, TupleHash_Update, TupleHash_Final, TupleHash_Squeeze"]}
{"id": "C17", "title": "SP 800-185 call-order discipline", "statement": "Update after a non-byte-aligned update, Update after Final, Final twice, Squeeze before Final or on a fixed-length instance return 1 and leave the instance unchanged.", "quantifier": "every instance and argument", "why_tests_cant": "All states.", "anchors": ["lib/high/Keccak/SP800-185/SP800-185.inc: cSHAKE_Update, cSHAKE_Final, cSHAKE_Squeeze, KMAC_Update, KMAC_Final, KMAC_Squeeze, ParallelHash_Update, ParallelHash_Final, TupleHash_Update, TupleHash_Final"]}
{"id": "C18", "title": "KangarooTwelve computes the specified tree hash for every chunking and every SIMD configuration", "statement": "KT128/KT256 output = the specification (S = M||C||length_encode(|C|), 8192-byte chunks, chaining values by TurboSHAKE with 0x0B, final node with 0x07 or 0x06) for every message, customization string, output length, every partition into Update and Squeeze calls, and whichever of the 2/4/5/8-way paths are compiled in or reported available at run time.", "quantifier": "all messages, customizations, output lengths, chunkings and parallel configurations", "why_tests_cant": "Control flow depends on queue fill level, chunk position and available parallelism; unbounded inputs.", "anchors": ["lib/high/KangarooTwelve/KangarooTwelve.c: KangarooTwelve, KangarooTwelve_Initialize, KangarooTwelve_Update, KangarooTwelve_Final, KangarooTwelve_Squeeze"]}
{"id": "C19", "title": "KangarooTwelve length encoding and call order", "statement": "right_encode in KangarooTwelve is injective and suffix-free on all size_t values; Update/Final outside the absorbing phase and Squeeze outside the squeezing phase return 1 and leave the instance unchanged.", "quantifier": "all 2^64 lengths; all instances", "why_tests_cant": "2^64 values / all states.", "anchors": ["lib/high/KangarooTwelve/KangarooTwelve.c: right_encode, KangarooTwelve_Update, KangarooTwelve_Final, KangarooTwelve_Squeeze"]}
{"id": "C20", "title": "The duplex object is a sponge over the history of its inputs", "statement": "The output of each Duplexing call is a prefix of what the sponge function outputs on the concatenation of all padded previous inputs and the current one (duplexing-sponge lemma), for queued input supplied in any split between FeedPartialInput and Duplexing.", "quantifier": "every permutation, rate (any number of bits from 3 to width), every history of successful calls respecting the documented preconditions", "why_tests_cant": "Histories are unbounded.", "anchors": ["lib/high/Keccak/KeccakDuplex.inc: DuplexInitialize, Duplexing, DuplexingFeedPartialInput, DuplexingFeedZeroes"]}
{"id": "C21", "title": "Duplex calls never modify the capacity part of the state except through the permutation", "statement": "Whatever arguments are passed, a duplex call that returns 0 only xors/overwrites state bits below the rate before permuting, and a call whose input does not fit returns 1.", "quantifier": "every reachable duplex instance, all arguments", "why_tests_cant": "All histories and rates; the failing corner needs a specific combination of queued bytes and trailing bits.", "anchors": ["lib/high/Keccak/KeccakDuplex.inc: Duplexing"]}
{"id": "C22", "title": "Further-output calls stay inside the caller buffer and the rate", "statement": "DuplexingGetFurtherOutput and ...AndAdd never write outside the first outputByteLen bytes of the output buffer and never release state bits beyond the rate; successive calls return consecutive pieces of the block.", "quantifier": "every reachable duplex instance and every requested length", "why_tests_cant": "All histories; the violating case needs a zero-length request at one index.", "anchors": ["lib/high/Keccak/KeccakDuplex.inc: DuplexingGetFurtherOutput, DuplexingGetFurtherOutputAndAdd"]}
{"id": "C23", "title": "SpongePRG output depends only on the byte history, not on call boundaries", "statement": "Feeding a seed in any pieces, and fetching output in any pieces, gives the same generator state and output stream; every call on an initialised generator returns 0.", "quantifier": "all capacities accepted by Initialize, all seeds, all partitions of feeds and fetches", "why_tests_cant": "Unbounded histories.", "anchors": ["lib/high/Keccak/PRG/KeccakPRG.inc: SpongePRG_Initialize, SpongePRG_Feed, SpongePRG_Fetch"]}
{"id": "C24", "title": "SpongePRG_Forget erases rho bits of the state", "statement": "SpongePRG_Forget succeeds iff rho >= c; after it, the rate part of the state that is fed to the permutation is a constant, so the state after Forget is a function of only the capacity part, and further outputs equal those of the specified duplex call sequence.", "quantifier": "every reachable generator state", "why_tests_cant": "All states.", "anchors": ["lib/high/Keccak/PRG/KeccakPRG.inc: SpongePRG_Forget"]}
{"id": "C25", "title": "Xoodyak decryption inverts encryption and keeps both parties synchronised", "statement": "If two keyed Xoodyak objects are in the same state, encrypting P on one and decrypting the result on the other returns P and leaves both in the same state; hence any session (any interleaving of Absorb, Encrypt/Decrypt, Squeeze, SqueezeKey, Ratchet) round-trips.", "quantifier": "every keyed state, every plaintext length, every session script", "why_tests_cant": "Unbounded sessions and lengths.", "anchors": ["lib/high/Xoodyak/Cyclist.inc: Cyclist_Encrypt, Cyclist_Decrypt, Cyclist_Crypt"]}
{"id": "C26", "title": "Xoodyak follows the Cyclist specification", "statement": "Initialize/Absorb/Encrypt/Decrypt/Squeeze/SqueezeKey/Ratchet perform the Up/Down sequence with the block splitting, domain bytes and rates of the Xoodyak specification, in hash and keyed mode.", "quantifier": "every key/id/counter (with the key length limit), every script of operations, all lengths", "why_tests_cant": "Unbounded scripts; first-block colours and empty-input cases.", "anchors": ["lib/high/Xoodyak/Cyclist.inc: all functions"]}
{"id": "C27", "title": "Xoodyak full-block fast paths equal the generic code", "statement": "The CyclistFullBlocks functions (absorb hash/keyed, squeeze hash/keyed, encrypt, decrypt) process the same bytes and give the same state and output as the block-by-block loop they replace.", "quantifier": "every state, every data length", "why_tests_cant": "Unbounded lengths and states.", "anchors": ["lib/low/Xoodoo/plain/Xoodyak-full-blocks.c", "lib/high/Xoodyak/Cyclist.inc: Cyclist_AbsorbAny, Cyclist_Crypt, Cyclist_SqueezeAny"]}
{"id": "C28", "title": "Xoodyak never writes outside its 48-byte state when the documented key limit is respected", "statement": "With KLen+IDLen <= 43 (and only then) Initialize fits its internal buffer, and all later calls keep every state access within 48 bytes.", "quantifier": "all keys, ids, counters, call histories", "why_tests_cant": "All lengths/histories.", "anchors": ["lib/high/Xoodyak/Cyclist.inc: Cyclist_AbsorbKey, Cyclist_Initialize"]}
{"id": "C29", "title": "Farfalle input compression is independent of chunking and of parallelism", "statement": "Kravatte/Xoofff_Compress accumulates exactly sum_i f(block_i xor mask_i) over the padded message, for any split of the message into byte-aligned pieces, whichever of the 8/4/2 (16/8/4) way parallel paths are compiled in; the rolling-key position advances by the same amount.", "quantifier": "all messages, chunkings, parallelism configurations, roll functions and permutations", "why_tests_cant": "Unbounded inputs and configurations.", "anchors": ["lib/high/Kravatte/Kravatte.c: Kra, Kravatte_Compress, ParallelCompress loops", "lib/high/Xoofff/Xoofff.c: Xoofff_Compress, Xoofff_AddIs"]}
{"id": "C30", "title": "Farfalle output expansion is independent of chunking and of parallelism", "statement": "The output stream of Kravatte/Xoofff_Expand does not depend on how the requested bits are split over byte-aligned calls nor on the parallel paths available.", "quantifier": "all accumulators, all lists of output lengths, all parallelism configurations", "why_tests_cant": "Unbounded sequences.", "anchors": ["lib/high/Kravatte/Kravatte.c: Vatte, Kravatte_Expand", "lib/high/Xoofff/Xoofff.c: Xoofff_Expand"]}
{"id": "C31", "title": "Kravatte and Xoofff compute Farfalle", "statement": "MaskDerivation, Compress* and Expand* on a sequence of input strings produce the Farfalle output (mask derivation by padding and permuting the key, one mask skipped per input string, last-string finalisation, expansion by rolling the accumulator).", "quantifier": "all keys that fit, all sequences of input strings, all output offsets and lengths", "why_tests_cant": "Unbounded inputs.", "anchors": ["lib/high/Kravatte/Kravatte.c: Kravatte_MaskDerivation, Kra, Vatte", "lib/high/Xoofff/Xoofff.c: Xoofff_MaskDerivation, Xoofff_Compress, Xoofff_Expand"]}
{"id": "C32", "title": "SANE sessions round-trip and reject wrong tags", "statement": "For two SANE objects started with the same key and nonce, each Unwrap of a wrapped (ciphertext, AD, tag) returns 0 and the plaintext, and both sides stay in sync for the whole session; Unwrap returns 0 iff the tag is the one Wrap would have produced for the recovered plaintext, and otherwise the plaintext buffer is zeroed.", "quantifier": "all keys, nonces, sessions of messages of any bit length", "why_tests_cant": "Unbounded sessions; forged tags.", "anchors": ["lib/high/Kravatte/KravatteModes.c: Kravatte_SANE_Initialize, Kravatte_SANE_Wrap, Kravatte_SANE_Unwrap", "lib/high/Xoofff/XoofffModes.c: XoofffSANE_Wrap, XoofffSANE_Unwrap"]}
{"id": "C33", "title": "SANSE sessions round-trip and reject wrong tags", "statement": "Same for SANSE (SIV-style) sessions.", "quantifier": "all keys, sessions of messages of any bit length", "why_tests_cant": "Unbounded sessions; forged tags.", "anchors": ["lib/high/Kravatte/KravatteModes.c: Kravatte_SANSE_Wrap, Kravatte_SANSE_Unwrap", "lib/high/Xoofff/XoofffModes.c: XoofffSANSE_Wrap, XoofffSANSE_Unwrap"]}
{"id": "C34", "title": "Wide block cipher: decipher inverts encipher for every length and tweak", "statement": "Kravatte/Xoofff WBC_Decipher(WBC_Encipher(P, W), W) = P for every data length in bits, every tweak and every key, and Encipher is a length-preserving permutation of the bit strings of that length.", "quantifier": "all keys, tweaks, data lengths and data", "why_tests_cant": "All lengths: the split point and the byte/bit handling change with the length.", "anchors": ["lib/high/Kravatte/KravatteModes.c: Kravatte_WBC_Encipher, Kravatte_WBC_Decipher", "lib/high/Xoofff/XoofffModes.c: XoofffWBC_Encipher, XoofffWBC_Decipher"]}
{"id": "C35", "title": "WBC-AE round-trips and accepts only untampered redundancy", "statement": "WBCAE_Decipher(WBCAE_Encipher(P, AD), AD) returns 0 and P; it returns 0 iff the last 128 bits of the deciphered string are zero, otherwise 1 with the plaintext zeroed.", "quantifier": "all keys, AD, plaintext lengths, all ciphertexts", "why_tests_cant": "All ciphertexts.", "anchors": ["lib/high/Kravatte/KravatteModes.c: Kravatte_WBCAE_Encipher, Kravatte_WBCAE_Decipher", "lib/high/Xoofff/XoofffModes.c: XoofffWBCAE_Encipher, XoofffWBCAE_Decipher"]}
{"id": "C36", "title": "WBC split point is well formed", "statement": "The Split function returns a left length nL with nL a multiple of 8, nL <= n, and both halves in the range required by the WBC specification, with no undefined shift for any length representable.", "quantifier": "all 64-bit data lengths", "why_tests_cant": "2^64 lengths with a logarithmic case split.", "anchors": ["lib/high/Kravatte/KravatteModes.c: Split", "lib/high/Xoofff/XoofffModes.c: Split"]}
{"id": "C37", "title": "All portable Keccak-p[1600] implementations compute the same permutation", "statement": "The reference, compact, optimised 64-bit (with and without lane complementing, any unrolling, 4/6/12/24/N rounds) and 32-bit bit-interleaved implementations map every 1600-bit state to the same result, namely Keccak-p[1600,n] of FIPS 202.", "quantifier": "all 2^1600 states, all numbers of rounds 0..24", "why_tests_cant": "State space is astronomically large.", "anchors": ["lib/low/KeccakP-1600/ref-64bits/KeccakP-1600-reference.c", "lib/low/KeccakP-1600/compact/KeccakP-1600-compact64.c", "lib/low/KeccakP-1600/plain-64bits/KeccakP-1600-opt64.c", "lib/low/KeccakP-1600/common/KeccakP-1600-64.macros", "lib/low/KeccakP-1600/ref-32bits/KeccakP-1600-reference32BI.c", "lib/low/KeccakP-1600/plain-32bits-inplace/KeccakP-1600-inplace32BI.c"]}
{"id": "C38", "title": "Keccak-p[1600] and Xoodoo are permutations", "statement": "For every number of rounds, the permutation functions are bijections on the state space.", "quantifier": "all states, all round counts", "why_tests_cant": "State space is astronomically large.", "anchors": ["lib/low/KeccakP-1600/ref-64bits/KeccakP-1600-reference.c: KeccakP1600_PermutationOnWords", "lib/low/Xoodoo/ref/Xoodoo-reference.c: Xoodoo_Permute_Nrounds"]}
{"id": "C39", "title": "Round constants and rotation offsets tables equal their generating algorithms", "statement": "The hard-coded round constants and rho offsets of every implementation equal what the LFSR and the (t+1)(t+2)/2 walk produce.", "quantifier": "all 24 rounds and 25 lanes, every implementation", "why_tests_cant": "Finite, but relied on by every other property; stated for all table entries.", "anchors": ["lib/low/KeccakP-1600/ref-64bits/KeccakP-1600-reference.c: KeccakP1600_InitializeRoundConstants, KeccakP1600_InitializeRhoOffsets", "lib/low/KeccakP-1600/plain-64bits/KeccakP-1600-opt64.c: KeccakF1600RoundConstants", "lib/low/KeccakP-1600/compact/KeccakP-1600-compact64.c", "lib/low/KeccakP-1600/ref-32bits/KeccakP-1600-reference32BI.c", "lib/low/KeccakP-1600/plain-32bits-inplace/KeccakP-1600-inplace32BI.c"]}
{"id": "C40", "title": "Byte-oriented state access functions implement the flat byte-array view", "statement": "AddByte/AddBytes/OverwriteBytes/OverwriteWithZeroes/ExtractBytes/ExtractAndAddBytes of each portable implementation act on the state as on a 200-byte (48-byte) array at [offset, offset+length), whatever the internal lane representation (plain, lane-complemented, bit-interleaved), and modify nothing else.", "quantifier": "all states, offsets and lengths with offset+length <= width, all data", "why_tests_cant": "All states and unaligned offset/length combinations.", "anchors": ["lib/low/common/SnP-Relaned.h", "lib/low/KeccakP-1600/plain-64bits/KeccakP-1600-opt64.c", "lib/low/KeccakP-1600/ref-32bits/KeccakP-1600-reference32BI.c", "lib/low/Xoodoo/plain/Xoodoo-optimized.c", "lib/low/KeccakP-1600/plain-32bits-inplace/KeccakP-1600-inplace32BI.c", "lib/low/KeccakP-1600/compact/KeccakP-1600-compact64.c", "lib/low/Xoodoo/ref/Xoodoo-reference.c"]}
{"id": "C41", "title": "Parallel state fallback behaves as independent states", "statement": "The PlSnP fallback layers make a P-way parallel object behave as P independent single states for every operation, including nested fallback (8-way over 4-way over 2-way over 1-way), lane-strided variants and FastLoop.", "quantifier": "all states, instance indices, offsets, lane counts and lane offsets", "why_tests_cant": "All states/parameters.", "anchors": ["lib/low/common/PlSnP-Fallback.inc"]}
{"id": "C42", "title": "Optimised Xoodoo equals reference Xoodoo", "statement": "The optimised 32-bit Xoodoo (6, 12 and N rounds) maps every state to the same result as the reference implementation.", "quantifier": "all 2^384 states, all round counts 0..12", "why_tests_cant": "State space is astronomically large.", "anchors": ["lib/low/Xoodoo/plain/Xoodoo-optimized.c", "lib/low/Xoodoo/ref/Xoodoo-reference.c"]}
{"id": "C43", "title": "FastLoop_Absorb equals repeated AddBytes+Permute", "statement": "The single-state fast absorb loop returns the number of bytes in whole blocks and leaves the same state as repeated AddBytes followed by the permutation, including the lane-complemented representation.", "quantifier": "all states, lane counts, data", "why_tests_cant": "Unbounded data.", "anchors": ["lib/low/KeccakP-1600/plain-64bits/KeccakP-1600-opt64.c: KeccakF1600_FastLoop_Absorb, KeccakP1600_12rounds_FastLoop_Absorb"]}
{"id": "C44", "title": "Unused bits of a partial last byte never influence the result", "statement": "When an API takes a bit length that is not a multiple of 8, the unused high bits of the last input byte have no influence on the output.", "quantifier": "all APIs taking bit lengths, all inputs", "why_tests_cant": "Violations need non-zero stray bits which test vectors never have.", "anchors": ["lib/high/Keccak/SP800-185/SP800-185.inc: cSHAKE_Initialize (customization), KMAC_Initialize (key, customization), TupleHash_Update", "lib/high/Kravatte/Kravatte.c: Kra", "lib/high/Xoofff/Xoofff.c: Xoofff_Compress", "lib/high/Kravatte/KravatteModes.c: SANE_AddToHistory", "lib/high/Keccak/FIPS202/KeccakHash.c: Keccak_HashUpdate"]}
{"id": "C45", "title": "SIMD implementations of several Keccak-p[1600] states keep them independent", "statement": "In the SSSE3/XOP implementation of two states and the AVX2 implementation of four states, every PlSnP function acts on the interleaved states as the documentation says on independent states: byte functions on one state only, lane functions on all with data laneOffset lanes apart, the permutations being Keccak-p[1600] with 24, 12, 6 or 4 rounds, for every unrolling; FastLoop_Absorb equals block-wise AddLanesAll and PermuteAll.", "quantifier": "all states, data, offsets, lengths, unrollings, contents of uninitialised variables", "why_tests_cant": "Interleaving bugs show only for particular instances, offsets and lane counts; tests use a few.", "anchors": ["lib/low/KeccakP-1600-times2/SIMD128/KeccakP-1600-times2-SIMD128.c", "lib/low/KeccakP-1600-times4/AVX2/KeccakP-1600-times4-SIMD256.c", "lib/low/KeccakP-1600-times2/SIMD128/KeccakP-1600-times2-SnP.h", "lib/low/KeccakP-1600-times4/AVX2/KeccakP-1600-times4-SnP.h"]}
{"id": "C46", "title": "The AVX2 Kravatte functions compute what the serial code computes", "statement": "KeccakP1600times4_KravatteCompress and KeccakP1600times4_KravatteExpand, called with at least four blocks, process floor(len/800)*800 bytes and give exactly the mask, accumulator and output that the block-by-block serial code gives, with and without the gather instructions; the bytes after the processed blocks are not touched. Hence Kravatte with the AVX2 path is Farfalle with the parameters of Kravatte. (On i386 this is false, because of a || in place of | in the macro replacing _mm256_extract_epi64.)", "quantifier": "all masks and accumulators, all inputs and output buffers of at least 800 and less than 2^64 bytes, all unrolling settings, all contents of uninitialised locals", "why_tests_cant": "The masks and messages are 1600-bit words and byte strings of any length; the roll recurrences kept in vector registers must agree with the serial rolls after any number of iterations.", "anchors": ["lib/low/KeccakP-1600-times4/AVX2/KeccakP-1600-times4-SIMD256.c: KeccakP1600times4_KravatteCompress, KeccakP1600times4_KravatteExpand, _mm256_extract_epi64", "lib/high/Kravatte/Kravatte.c: ParallelCompressLoopFast, ParallelExpandLoopFast, Kravatte_Rollc, Kravatte_Rolle"]}
{"id": "C47", "title": "SIMD implementations of several Xoodoo states keep them independent", "statement": "In the SSSE3/XOP, AVX2 and AVX-512 implementations of four, eight and sixteen Xoodoo states, every PlSnP function acts on the interleaved states as the documentation says on independent states: byte functions on one state only, lane functions (also with gather and scatter instructions) on all with data laneOffset lanes apart, and the permutations are Xoodoo[12] and Xoodoo[6] on each state.", "quantifier": "all states, data, offsets, lengths and lane offsets with less than 2^32 bytes between the first and the last block", "why_tests_cant": "Interleaving and variable-renaming bugs in the macros show only for particular lanes, offsets and lane counts.", "anchors": ["lib/low/Xoodoo-times4/SSSE3/Xoodoo-times4-SIMD128.c", "lib/low/Xoodoo-times8/AVX2/Xoodoo-times8-SIMD256.c", "lib/low/Xoodoo-times16/AVX512/Xoodoo-times16-SIMD512.c", "lib/low/Xoodoo-times8/AVX512/Xoodoo-times8-SIMD512.c", "lib/low/Xoodoo-times4/AVX512/Xoodoo-times4-SIMD512.c"]}
{"id": "C48", "title": "The SIMD Xoofff functions compute what the serial code computes", "statement": "CompressFastLoop and ExpandFastLoop of the AVX2 file (8 blocks at a time) and of the three AVX-512 files (16, 8 and 4 blocks), called with at least one group of blocks, process the largest possible number of groups and give exactly the mask, accumulator and output that the block-by-block serial code gives, and do not touch the bytes after the processed blocks. Hence Xoofff with any list of these paths is Farfalle with the parameters of Xoofff. The AddIs functions of the same files give the same buffer as Xoofff_AddIs.", "quantifier": "all masks and accumulators, all inputs and output buffers of at least one group and less than 2^64 bytes, all values of undefined register halves, all bit lengths of AddIs", "why_tests_cant": "The rolled masks are kept in registers in a rotated order and reduced by permutations of words; an error can show for a single word of a single block in a group, and the masks are 384-bit words.", "anchors": ["lib/low/Xoodoo-times8/AVX2/Xoodoo-times8-SIMD256.c: Xooffftimes8_CompressFastLoop, Xooffftimes8_ExpandFastLoop, Xooffftimes8_AddIs", "lib/low/Xoodoo-times16/AVX512/Xoodoo-times16-SIMD512.c: Xooffftimes16_CompressFastLoop, Xooffftimes16_ExpandFastLoop, Xooffftimes16_AddIs", "lib/low/Xoodoo-times8/AVX512/Xoodoo-times8-SIMD512.c", "lib/low/Xoodoo-times4/AVX512/Xoodoo-times4-SIMD512.c", "lib/high/Xoofff/Xoofff.c: ParallelCompressLoopFast, ParallelExpandLoopFast, Xoofff_AddIs"]}
{"id": "C49", "title": "The AVX-512 implementations of two, four and eight Keccak-p[1600] states keep independent states and process leaves as RFC 9861 says", "statement": "The AVX-512 implementations of 2, 4 and 8 parallel states hold as many independent 200-byte states: every PlSnP function acts on the states as documented, the permutations being Keccak-p[1600] with 24, 12, 6 and 4 rounds, for each unrolling. The fast absorption loops (24 and 12 rounds) absorb the largest possible number of blocks into each state. KeccakP1600times8_KT128ProcessLeaves and KeccakP1600times8_KT256ProcessLeaves write the chaining values of eight leaves and nothing else; hence KT128 and KT256 with these functions are those of RFC 9861.", "quantifier": "all states, all data and lengths, all lane counts and offsets in range, all unrollings, all inputs of eight leaves", "why_tests_cant": "Lanes are gathered and scattered through index vectors that depend on the offset argument, and the rounds are computed in place with lanes changing place every round; an error can concern a single lane of a single state for some lane counts only. The data fed to the leaves are transposed in registers.", "anchors": ["lib/low/KeccakP-1600-times2/AVX512/KeccakP-1600-times2-SIMD512.c", "lib/low/KeccakP-1600-times4/AVX512/KeccakP-1600-times4-SIMD512.c", "lib/low/KeccakP-1600-times8/AVX512/KeccakP-1600-times8-SIMD512.c: AddLanesAll, OverwriteLanesAll, ExtractLanesAll, ExtractAndAddLanesAll, PermuteAll_24rounds, PermuteAll_12rounds, PermuteAll_6rounds, PermuteAll_4rounds, KeccakF1600times8_FastLoop_Absorb, KeccakP1600times8_12rounds_FastLoop_Absorb, KeccakP1600times8_KT128ProcessLeaves, KeccakP1600times8_KT256ProcessLeaves", "lib/high/KangarooTwelve/KangarooTwelve.c"]}
{"id": "C50", "title": "The SIMD implementations of a single Xoodoo state agree with the plain implementation", "statement": "In the SSE2 (with or without XOP) and AVX-512 implementations of a single Xoodoo state, the permutations are Xoodoo[n], the byte access functions act on the 48 bytes of the state as documented, and the full-block functions of Xoodyak (absorb, squeeze, encrypt, decrypt) give the state, the output and the returned value of plain/Xoodyak-full-blocks.c, also when they work in place, and touch no other byte. The AVX-512 Xoofff_CompressFastLoop, Xoofff_ExpandFastLoop and Xoofff_AddIs give what the serial code gives.", "quantifier": "all states, all data, all lengths of at least one block below 2^64, all numbers of rounds, all positions of the buffers", "why_tests_cant": "The lanes of the planes are rotated by shuffles and the padding byte is added through constants in a lane of a register; the test suite calls the functions with separate buffers only, and an error in a state after the last block shows only in later calls.", "anchors": ["lib/low/Xoodoo/SSE2/Xoodoo-SIMD128.c", "lib/low/Xoodoo/SSE2/Xoodyak-full-block-SIMD128.c: Xoodyak_AbsorbKeyedFullBlocks, Xoodyak_AbsorbHashFullBlocks, Xoodyak_SqueezeKeyedFullBlocks, Xoodyak_SqueezeHashFullBlocks, Xoodyak_EncryptFullBlocks, Xoodyak_DecryptFullBlocks", "lib/low/Xoodoo/AVX512/Xoodoo-SIMD512.c: Xoodoo_Permute_Nrounds, Xoofff_CompressFastLoop, Xoofff_ExpandFastLoop, Xoofff_AddIs", "lib/low/Xoodoo/AVX512/Xoodyak-full-block-SIMD512.c", "lib/low/Xoodoo/plain/Xoodyak-full-blocks.c"]}
{"id": "C51", "title": "The XOP and the AVX-512 C implementations of a single Keccak-p[1600] state compute Keccak-p[1600]", "statement": "In the XOP implementation and in the AVX-512 implementation in C, KeccakP1600_Permute_Nrounds (up to 24 rounds), _12rounds and _24rounds are KECCAK-p[1600, nr] of FIPS 202 on the bytes of the state; AddByte, AddBytes, OverwriteBytes, OverwriteWithZeroes, ExtractBytes and ExtractAndAddBytes act on the 200 bytes as documented; KeccakF1600_FastLoop_Absorb and KeccakP1600_12rounds_FastLoop_Absorb of the AVX-512 version absorb all whole blocks and return their length. The modes give the functions of FIPS 202 over either.", "quantifier": "all states, all numbers of rounds up to 24, all unrollings, all offsets and lengths within the state, all lane counts from 1 to 25, all data", "why_tests_cant": "The lanes of the state are spread over registers that change their contents from round to round, with index vectors of which one wrong entry concerns a few lanes only; the byte access functions have four stages whose borders depend on offset and length, and the fast loop has a separate path for 21 lanes.", "anchors": ["lib/low/KeccakP-1600/XOP/KeccakP-1600-XOP.c", "lib/low/KeccakP-1600/AVX512/C/KeccakP-1600-AVX512.c: KeccakP_Round, rounds12, rounds24, KeccakP1600_Permute_Nrounds, KeccakP1600_AddBytes, KeccakP1600_ExtractAndAddBytes, KeccakF1600_FastLoop_Absorb, KeccakP1600_12rounds_FastLoop_Absorb", "lib/low/KeccakP-1600/common/KeccakP-1600-unrolling.macros", "lib/low/common/SnP-Relaned.h"]}
{"id": "C52", "title": "The AVX-512 Kravatte functions compute what the serial code computes", "statement": "KeccakP1600times8_KravatteCompress and KeccakP1600times8_KravatteExpand, called with at least eight blocks, process floor(len/1600)*1600 bytes and give exactly the mask, accumulator and output that the block-by-block serial code gives; the bytes after the processed blocks are not touched. Hence Kravatte with the AVX-512 implementations is Farfalle with the parameters of Kravatte. (On i386 the first function is wrong, because of a || in place of | in the macro replacing _mm256_extract_epi64.)", "quantifier": "all masks and accumulators, all inputs and output buffers of at least 1600 and less than 2^64 bytes", "why_tests_cant": "The masks and messages are 1600-bit words and byte strings of any length; the roll recurrences kept in vector registers through index vectors must agree with the serial rolls after any number of iterations.", "anchors": ["lib/low/KeccakP-1600-times8/AVX512/KeccakP-1600-times8-SIMD512.c: KeccakP1600times8_KravatteCompress, KeccakP1600times8_KravatteExpand, _mm256_extract_epi64", "lib/high/Kravatte/Kravatte.c: ParallelCompressLoopFast, ParallelExpandLoopFast, Kravatte_Rollc, Kravatte_Rolle"]}
{"id": "C53", "title": "The standalone compact implementations are FIPS 202", "statement": "The three C implementations in Standalone/CompactFIPS202 (readable-and-compact, more-compact, tweetable), which share no code with the library, compute KECCAK-f[1600]; their sponge functions are SPONGE[KECCAK-f[1600], pad10*1, rate] for every rate of whole bytes (whole words for the tweetable one) and delimited suffix (below 0x80 for the tweetable one), and the functions they export are SHAKE128, SHAKE256 and SHA3-224/256/384/512 of FIPS 202 for every message and output length. They write exactly the output. Outside of the valid parameters the readable implementation either returns without writing or is undefined, exactly when the rate passing its check is not from 8 to 1600 or a buffer is too short. The stub agrees with the readable implementation on the parameters it accepts.", "quantifier": "all states, all messages, all rates and suffixes, all output lengths, all buffers that hold the lengths (and, for definedness, all parameters)", "why_tests_cant": "Test vectors cover a few messages and the six standard rates; the rotation walk, the LFSR computed constants and the byte loops must be right for all 2^1600 states and any length, and the overflowing parameter check is reached by no test.", "anchors": ["Standalone/CompactFIPS202/C/Keccak-readable-and-compact.c: KeccakF1600_StatePermute, Keccak, FIPS202_SHAKE128, FIPS202_SHA3_256, LFSR86540", "Standalone/CompactFIPS202/C/Keccak-more-compact.c: KeccakF1600, Keccak, LFSR86540", "Standalone/CompactFIPS202/C/TweetableFIPS202.c: F, k, crypto_hash_sha3256", "Standalone/CompactFIPS202/C/TweetableFIPS202-stub.c: Keccak"]}
{"id": "C54", "title": "The standalone Rust KangarooTwelve is KT128 of RFC 9861", "statement": "The Rust implementation in Standalone/KangarooTwelve/Rust, which shares no code with the library, computes KECCAK-p[1600, 12]; its function F is TurboSHAKE128 for every delimited suffix; right_encode is length_encode; and KangarooTwelve(M, C, n) is the first n bytes of KT128 of RFC 9861, hence equal to what the C library returns with any permutation and parallel implementations. It panics exactly when a vector would exceed the size limit of 2^63-1 bytes.", "quantifier": "all states, all messages, customization strings and output lengths, all delimited suffixes", "why_tests_cant": "The usual test vectors use few lengths; a comment in the code says its tests pass without two of the conditional permutation calls, one of which is needed for every message whose padded length falls on a multiple of 168 bytes.", "anchors": ["Standalone/KangarooTwelve/Rust/k12.rs: KeccakP1600onLanes, KeccakP1600, F, right_encode, KangarooTwelve"]}
{"id": "C55", "title": "The standalone Python implementations are FIPS 202", "statement": "The permutation of CompactFIPS202.py, on unbounded integers, and that of CompactFIPS202_numpy.py, on arrays of 64-bit words, are KECCAK-f[1600]. With either, Keccak(rate, capacity, input, suffix, n) is the sponge function for every rate from 8 to 1600 that is a multiple of 8 and every delimited suffix, and SHAKE128, SHAKE256, SHA3_224 to SHA3_512 are the functions of FIPS 202. Keccak returns None exactly if the check of rate and capacity fails; for the other arguments it is determined when it returns a value and when it raises an exception or does not end.", "quantifier": "all states, all messages, all integer rates, capacities, suffixes and output lengths", "why_tests_cant": "The test vectors use the six FIPS 202 parameter sets; a slip in the masking of the unbounded integers or in the tables of the numpy version shows only for some lanes, and the behaviour for other rates, negative lengths and suffixes is not tested at all.", "anchors": ["Standalone/CompactFIPS202/Python/CompactFIPS202.py: ROL64, KeccakF1600onLanes, load64, store64, KeccakF1600, Keccak, SHAKE128, SHAKE256, SHA3_224, SHA3_256, SHA3_384, SHA3_512", "Standalone/CompactFIPS202/Python/CompactFIPS202_numpy.py: KeccakF1600, Keccak, SHAKE128, SHAKE256, SHA3_224, SHA3_256, SHA3_384, SHA3_512"]}
{"id": "C56", "title": "The AVX2 assembly of Keccak-p[1600] is FIPS 202 through the declared lane order", "statement": "KeccakP-1600-AVX2.s keeps the lanes in the order of the structure declared in its header. Seen through that order (which is a permutation of the 25 lanes), its permutation functions are KECCAK-p[1600, nr] for 1 to 24 rounds, its byte access functions (add, overwrite, overwrite with zeroes, extract, extract and add) act on the flat array of 200 bytes as documented for every offset and length within it and modify nothing else, and the two fast loops (24 and 12 rounds), including the paths for 17 and 21 lanes that gather the input with masks, equal block-by-block absorption for 1 to 25 lanes and all data. For zero rounds the function has no defined result.", "quantifier": "all states, round numbers, offsets, lengths, lane counts and data", "why_tests_cant": "The lane order is encoded four times (mapState, the gather indices and masks, the register layout, the order of the structure); an error in one of the 17 or 21-lane masks, in the unaligned head or in the tail of a byte function shows only for particular lane counts, offsets and lengths.", "anchors": ["lib/low/KeccakP-1600/AVX2/KeccakP-1600-AVX2.s: KeccakP1600_Initialize, KeccakP1600_AddByte, KeccakP1600_AddBytes, KeccakP1600_OverwriteBytes, KeccakP1600_OverwriteWithZeroes, KeccakP1600_ExtractBytes, KeccakP1600_ExtractAndAddBytes, KeccakF1600, KeccakP1600_Permute_24rounds, KeccakP1600_Permute_12rounds, KeccakP1600_Permute_Nrounds, KeccakF1600_FastLoop_Absorb, KeccakP1600_12rounds_FastLoop_Absorb", "lib/low/KeccakP-1600/AVX2/KeccakP-1600-SnP.h: KeccakP1600_AVX2_state"]}
{"id": "C57", "title": "The AVX-512 assembly of Keccak-p[1600] is FIPS 202", "statement": "In KeccakP-1600-AVX512.s two consecutive rounds use two different arrangements of the lanes in the registers. The double rounds, and the single round done first for an odd number of rounds, are the rounds of FIPS 202: the permutation functions are KECCAK-p[1600, nr] for every nr from 0 to 24. The byte access functions act on the flat array of 200 bytes as documented for every offset and length within it and modify nothing else. The two fast loops (24 and 12 rounds), including the paths for 17 and 21 lanes that load the input with masks and read nothing past the block, equal block-by-block absorption for 1 to 25 lanes and all data.", "quantifier": "all states, round numbers from 0 to 24, offsets, lengths, lane counts from 1 to 25 and data", "why_tests_cant": "An error in the blends of the single-round path shows only for odd numbers of rounds, which the standard functions never use; errors in the masked loads (reading past the end of the data, or the second of the two merged loads for 17 lanes) or in the heads and tails of the byte functions show only for particular lane counts, offsets and lengths.", "anchors": ["lib/low/KeccakP-1600/AVX512/KeccakP-1600-AVX512.s: KeccakP1600_Initialize, KeccakP1600_AddBytes, KeccakP1600_OverwriteBytes, KeccakP1600_OverwriteWithZeroes, KeccakP1600_ExtractBytes, KeccakP1600_ExtractAndAddBytes, __KeccakF1600, KeccakP1600_Permute_24rounds, KeccakP1600_Permute_12rounds, KeccakP1600_Permute_Nrounds, KeccakF1600_FastLoop_Absorb, KeccakP1600_12rounds_FastLoop_Absorb", "lib/low/KeccakP-1600/AVX512/KeccakP-1600-SnP.h: KeccakP1600_AddByte, KeccakP1600_plain64_state"]}
{"id": "C58", "title": "KeccakSum prints the documented digests", "statement": "For every command line made of the documented options, strings and file names, the program prints, in order, one line for each string and each file (standard input for '-' or when there is no file name): the base64 (RFC 4648) or hexadecimal encoding, as selected at that point, of the digest of its contents by the function (SHA3-*, SHAKE*, Keccak-256, KangarooTwelve, ParallelHash) and with the output length selected at that point; it returns 0. The encoders never write past the end of the result array, return an error exactly if the encoding and its terminator do not fit, and otherwise write the exact encoding.", "quantifier": "all command lines, file contents below 2^61 bytes, output lengths up to 65536 bytes, data and result sizes", "why_tests_cant": "The options interact: each one changes part of a set of variables, so the number of command lines is unbounded; the padding of base64 depends on the length modulo 3 and every output position has its own bound check; the contents are read in pieces of 65536 bytes.", "anchors": ["util/KeccakSum/KeccakSum.c: hashInitialize, hashUpdate, hashFinal, processFile, processString, process, main", "util/KeccakSum/base64.c: base64encode, hexencode"]}
{"id": "C59", "title": "The x86-64 assembly of Keccak-p[1600] is FIPS 202", "statement": "The three x86-64 assembly files (rotations by rolq or by shld, byte functions with or without SIMD instructions) keep six lanes of the state complemented and carry column parities from one round to the next in registers, alternating between the state and an area on the stack. The permutation functions are KECCAK-p[1600, nr] of FIPS 202, for every nr from 0 to 24, entered through a jump table, whatever the stack contained before. The byte access functions act on the represented flat array of 200 bytes as documented, for every offset and length within it, and modify nothing else. The fast loop absorbs each block followed by the lane of trailing bits for every lane count, and without trailing bits obeys the contract of the fast loops.", "quantifier": "all three files with and without SIMD, all states, stack contents, round numbers, offsets, lengths, lane counts, trailing lanes and data", "why_tests_cant": "Entering the unrolled rounds in the middle depends on the parity of nr (the copy of the state to the stack) and on each entry of the jump table; the complementation shows only for bytes of six lanes, and the conditional steps of AddBytes over 16, 8, 4, 2 and 1 lanes each only for lengths with that bit set.", "anchors": ["lib/low/KeccakP-1600/x86-64/KeccakP-1600-x86-64-gas.s: mKeccakRound, mKeccakPermutation12, mKeccakPermutation24, KeccakP1600_Permute_Nrounds, KeccakP1600_AddBytes, KeccakP1600_OverwriteBytes, KeccakP1600_ExtractBytes, KeccakP1600_ExtractAndAddBytes, KeccakF1600_FastLoop_Absorb", "lib/low/KeccakP-1600/x86-64/KeccakP-1600-x86-64-shld-gas.s", "lib/low/KeccakP-1600/x86-64/KeccakP-1600-x86-64-gas_Apple.s"]}
{"id": "C60", "title": "The ARMv8-A assembly of Keccak-p[1600] is FIPS 202", "statement": "The ARMv8-A assembly keeps two lanes in each vector register, in an order given by the de-interleaving loads, moves lanes between vector and general registers for rho and pi, and computes theta and chi on pairs of lanes with permuting instructions. The permutation functions are KECCAK-p[1600, nr] of FIPS 202 for every nr from 0 to 24, whatever the unused half of the last register contains. The byte access functions, with their loops over 64 bytes, 8 bytes and single bytes and 32-bit counters, act on the flat array of 200 bytes as documented for every offset and length within it, and modify nothing else.", "quantifier": "all states, register contents, round numbers, offsets, lengths and data", "why_tests_cant": "An exchanged register half in theta or chi changes the result only through particular pairs of lanes in intermediate rounds; the counters become negative between the loops and must be corrected for every combination of length classes; the behaviour without rounds depends on what follows the table in memory.", "anchors": ["lib/low/KeccakP-1600/ARMv8A/KeccakP-1600-armv8a-neon.s: LoadState, StoreState, RhoPi, ROTL64, KeccakRound, KeccakP1600_Initialize, KeccakP1600_AddByte, KeccakP1600_AddBytes, KeccakP1600_OverwriteBytes, KeccakP1600_OverwriteWithZeroes, KeccakP1600_ExtractBytes, KeccakP1600_ExtractAndAddBytes, KeccakP1600_Permute_Nrounds, KeccakP1600_Permute_12rounds, KeccakP1600_Permute_24rounds, KeccakP1600_Permute", "lib/low/KeccakP-1600/ARMv8A/KeccakP-1600-SnP.h"]}
{"id": "C61", "title": "The SUPERCOP and NIST LWC interface of Xoodyak and SHA-3", "statement": "crypto_aead_encrypt of both versions writes the ciphertext and tag that the respective Xoodyak submission specifies, sets the length and touches nothing else. crypto_aead_decrypt accepts exactly those strings that are the encryption of some message under the same key, nonce and associated data, and then returns this message; for every other string it returns -1 with length 0 and leaves no decrypted byte in the buffer, and strings shorter than the tag are refused without a write. crypto_hash of Xoodyak and of the six SHA-3 functions writes the specified digest and nothing else.", "quantifier": "all keys, nonces, associated data, messages, ciphertexts, buffer contents and both settings of the full-block functions", "why_tests_cant": "That no forged ciphertext is accepted except by matching the tag, and that the buffer is cleared on every refusal, is a statement about all ciphertexts; a test sees only a few.", "anchors": ["tests/SUPERCOP/Xoodyak_aead/encrypt.c: crypto_aead_encrypt, crypto_aead_decrypt", "tests/SUPERCOP/Xoodyak_aead_round3/encrypt.c: crypto_aead_encrypt, crypto_aead_decrypt", "tests/SUPERCOP/Xoodyak_hash/hash.c: crypto_hash", "tests/SUPERCOP/SHA3-224/SHA3-224.c, SHA3-256/SHA3-256.c, SHA3-384/SHA3-384.c, SHA3-512/SHA3-512.c, SHAKE128/SHAKE128.c, SHAKE256/SHAKE256.c: crypto_hash"]}
{"id": "C62", "title": "The 32-bit ARM assembly of Xoodoo, Xoofff and Xoodyak is Xoodoo", "statement": "The assembly for ARMv7-M and ARMv6 never rotates a plane as a whole: the rotations of a round are folded into the operands of the instructions of later rounds, and the registers of two planes are renamed from round to round. The permutations are Xoodoo[6] and Xoodoo[12] whatever the other registers contain. The byte access functions act on the flat array of 48 bytes as documented. The functions for compressing and expanding full blocks of Xoofff, which leave the planes in rotated and renamed registers and undo this when adding to the accumulator, equal the serial code for every number of blocks, and adding strings of any number of bits equals the function in C. The Xoodyak functions for full blocks give the state, the output and the returned value of the plain implementation, with decryption also in place.", "quantifier": "all states, register contents, data, lengths of at least one block and below 2^32, and relative positions of input and output that do not overwrite unread input", "why_tests_cant": "A wrong carried rotation cancels for symmetric states, the counters wrap below zero and are corrected for every length class, and overlapping buffers are rarely tested at all.", "anchors": ["lib/low/Xoodoo/ARM/Xoodoo-uf-armv7m-le-gcc.s: mXor3, mRliXor, mRloXor, mChi3, mRound, Xoodoo_Initialize, Xoodoo_AddBytes, Xoodoo_OverwriteBytes, Xoodoo_OverwriteWithZeroes, Xoodoo_ExtractBytes, Xoodoo_ExtractAndAddBytes, Xoodoo_Permute_6rounds, Xoodoo_Permute_12rounds, Xoofff_AddIs, Xoofff_CompressFastLoop, Xoofff_ExpandFastLoop", "lib/low/Xoodoo/ARM/Xoodyak-uf-armv7m-le-gcc.s: Xoodoo_Permute_12roundsAsm, Xoodyak_AbsorbKeyedFullBlocks, Xoodyak_AbsorbHashFullBlocks, Xoodyak_SqueezeKeyedFullBlocks, Xoodyak_SqueezeHashFullBlocks, Xoodyak_EncryptFullBlocks, Xoodyak_DecryptFullBlocks", "lib/low/Xoodoo/ARM/Xoodoo-SnP.h: Xoodoo_AddByte"]}
{"id": "C63", "title": "The in-place 32-bit ARM assembly of Keccak-p[1600] is FIPS 202", "statement": "The assembly for ARMv7-M and ARMv7-A keeps the state as 50 bit-interleaved words and processes it in place: the words move from round to round and are back in order after four rounds, so that the loop has four entry points, three of them after a reordering of the state. For every number of rounds from 1 to 24 and for the functions for 12 and 24 rounds, the program computes Keccak-p[1600, nr], whatever the registers and the stack contain, and leaves the same words as the portable C code. The byte functions, in both files, act on the flat array of 200 bytes as documented. With no rounds, the program should leave the state unchanged.", "quantifier": "all states, register and stack contents, numbers of rounds up to 24, data, offsets and lengths within the state", "why_tests_cant": "2^1600 states; a wrong offset or rotation among several hundred macro arguments may only matter for a number of rounds that is no multiple of four, and the byte functions have their own code for each alignment and length.", "anchors": ["lib/low/KeccakP-1600/ARM/KeccakP-1600-inplace-32bi-armv7m-le-gcc.s: toBitInterleaving, fromBitInterleaving, xor5, xorrol, xandnot, KeccakThetaRhoPiChiIota, KeccakThetaRhoPiChi, KeccakRound0, KeccakRound1, KeccakRound2, KeccakRound3, SwapPI13, SwapPI2, SwapEO, KeccakP1600_Initialize, KeccakP1600_AddByte, KeccakP1600_AddBytes, KeccakP1600_OverwriteBytes, KeccakP1600_OverwriteWithZeroes, KeccakP1600_ExtractBytes, KeccakP1600_ExtractAndAddBytes, KeccakP1600_Permute_Nrounds, KeccakP1600_Permute_12rounds, KeccakP1600_Permute_24rounds, KeccakP1600_Permute", "lib/low/KeccakP-1600/ARM/KeccakP-1600-inplace-32bi-armv7a-le-gcc.s: toBitInterleaving, fromBitInterleaving"]}
{"id": "C64", "title": "The in-place ARMv6-M assembly of Keccak-p[1600] is FIPS 202 and accesses only the state and aligned words", "statement": "The assembly for ARMv6-M moves the pointer to the state by 32 words back and forth because of the short offsets of its instructions. For every number of rounds from 1 to 24 and for the functions for 12 and 24 rounds, whatever the registers and the stack contain, the program computes Keccak-p[1600, nr], accesses no word outside of the state, and leaves the pointer where it was and the same words as the portable C code. The byte functions act on the flat array of 200 bytes as documented for buffers at any address, and never access a word at an address that is not a multiple of 4. With no rounds, the program should leave the state unchanged.", "quantifier": "all states, register and stack contents, numbers of rounds up to 24, data, addresses, offsets and lengths within the state", "why_tests_cant": "2^1600 states; whether the pointer is moved depends on the macro arguments `prev` and `last` at each of several hundred places, and unaligned accesses are only faults on some processors.", "anchors": ["lib/low/KeccakP-1600/ARM/KeccakP-1600-inplace-32bi-armv6m-le-gcc.s: toBitInterleaving, fromBitInterleavingStep, fromBitInterleaving, load, store, xor5, xorrol, xorrolR2, xorh, xandnot, xandnotR4, KeccakThetaRhoPiChiIota, KeccakThetaRhoPiChi, KeccakRound0, KeccakRound1, KeccakRound2, KeccakRound3, ldrf, strf, SwapPI13, SwapPI2, SwapEO, KeccakP1600_Initialize, KeccakP1600_AddByte, KeccakP1600_AddBytes, KeccakP1600_OverwriteBytes, KeccakP1600_OverwriteWithZeroes, KeccakP1600_ExtractBytes, KeccakP1600_ExtractAndAddBytes, KeccakP1600_Permute_Nrounds, KeccakP1600_Permute_12rounds, KeccakP1600_Permute_24rounds, KeccakP1600_Permute"]}
{"id": "C65", "title": "The ARMv6-M assembly of Keccak-p[1600] with a second state on the stack is FIPS 202, for odd and even numbers of rounds", "statement": "The programs `u1` and `u2` for ARMv6-M do each round from one state to another, one of which is on the stack; when the number of rounds is odd the state is first copied to the stack, so that the last round writes to the state of the caller. For every number of rounds from 1 to 24 and for the functions for 12 and 24 rounds, whatever the registers and the stack contain, both programs compute Keccak-p[1600, nr] on the state of the caller, access no word outside of the two states and no constant outside of the table, leave `r0` at the address of the state, and leave the same words as the program in place. With no rounds, the programs should leave the state unchanged.", "quantifier": "all states, register and stack contents, and numbers of rounds up to 24", "why_tests_cant": "2^1600 states; which state is read and which constants are used depends on the parity of the number of rounds, and the tests of the library use 12 and 24 rounds.", "anchors": ["lib/low/KeccakP-1600/ARM/KeccakP-1600-u1-32bi-armv6m-le-gcc.s: xor5, te0m, te1m, te0r, te1r, trp1, trp5e, trp5o, chio1, chio5, KeccakP1600_Permute_Nrounds, KeccakP1600_Permute_NroundsOdd, KeccakP1600_Permute_12rounds, KeccakP1600_Permute_24rounds, KeccakP1600_Permute", "lib/low/KeccakP-1600/ARM/KeccakP-1600-u2-32bi-armv6m-le-gcc.s: load, store, xor5, te0m, te1m, te0r, te1r, trp1, trp5, chio1, chio5, Kround, KeccakP1600_Permute_Nrounds, KeccakP1600_Permute_NroundsOdd, KeccakP1600_Permute_12rounds, KeccakP1600_Permute_24rounds, KeccakP1600_Permute"]}
{"id": "C66", "title": "The ARMv6-M assembly of Xoodoo, Xoofff and Xoodyak is correct whatever the alignment of the buffers", "statement": "For every number of rounds up to 12 the permutation computes Xoodoo[n]; the byte access functions meet their contract with the state at a multiple of 4 and the other buffers at any address; `Xoofff_CompressFastLoop`, `Xoofff_ExpandFastLoop` and `Xoofff_AddIs` are the serial code for all lengths and addresses; the five `Xoodyak_...FullBlocks` functions give the state, the output and the returned value of the plain implementation for all lengths and all addresses of the input and the output. No byte outside of the buffers is accessed, and no word at an address that is not a multiple of 4.", "quantifier": "all states, register contents, data, lengths, offsets and addresses", "why_tests_cant": "Which code runs depends on the addresses of two or three buffers; the tests of the library use buffers that are all aligned, or the same misalignment, and on a host without alignment faults the wrong choice is invisible.", "anchors": ["lib/low/Xoodoo/ARM/Xoodoo-u1-armv6m-le-gcc.s: Xoodoo_AddBytes, Xoodoo_OverwriteBytes, Xoodoo_OverwriteWithZeroes, Xoodoo_ExtractBytes, Xoodoo_ExtractAndAddBytes, mXor3, mXor, mChi3, mTheta, mRhoWest, mIota, mChi, mRhoEast, mRound, Xoodoo_Permute_Nrounds, Xoodoo_Permute_6rounds, Xoodoo_Permute_12rounds, Xoofff_AddIs, mLdu, Xoofff_CompressFastLoop, mStu, Xoofff_ExpandFastLoop", "lib/low/Xoodoo/ARM/Xoodyak-u1-armv6m-le-gcc.s: mLoadU, mStoreU, Xoodoo_Permute_12roundsAsm, Xoodyak_AbsorbKeyedFullBlocks, Xoodyak_AbsorbHashFullBlocks, Xoodyak_SqueezeKeyedFullBlocks, Xoodyak_SqueezeHashFullBlocks, Xoodyak_EncryptFullBlocks, Xoodyak_DecryptFullBlocks"]}
{"id": "C67", "title": "The ARMv7A assembly with NEON of Xoodoo, Xoofff and Xoodyak is correct", "statement": "A plane of the state is one NEON register and the round constants are read through a pointer that advances. The functions for 6 and 12 rounds compute Xoodoo[6] and Xoodoo[12] and read no constant outside of the tables; the byte access functions meet their contract; `Xoofff_CompressFastLoop`, `Xoofff_ExpandFastLoop` and `Xoofff_AddIs` are the serial code for all lengths; the `Xoodyak_...FullBlocks` functions give the state, the output and the returned value of the plain implementation for all lengths, also when input and output are the same buffer. Registers that hold values over the permutation are not overwritten by it, and no byte outside of the buffers is accessed.", "quantifier": "all states, register contents, data, lengths and positions of the buffers", "why_tests_cant": "2^384 states and all lengths; that the padding constant kept in q6 survives the permutation and the loads of partial blocks depends on which halves of the register each instruction writes.", "anchors": ["lib/low/Xoodoo/ARMv7A-NEON/Xoodoo-uf-armv7a-neon-le-gcc.s: Xoodoo_Initialize, Xoodoo_AddBytes, Xoodoo_Permute_6rounds, Xoodoo_Permute_12rounds, Xoofff_AddIs, Xoofff_CompressFastLoop, Xoofff_ExpandFastLoop, mRound", "lib/low/Xoodoo/ARMv7A-NEON/Xoodyak-uf-armv7a-neon-le-gcc.s: Xoodoo_Permute_12roundsAsm, Xoodyak_AbsorbKeyedFullBlocks, Xoodyak_AbsorbHashFullBlocks, Xoodyak_SqueezeKeyedFullBlocks, Xoodyak_SqueezeHashFullBlocks, Xoodyak_EncryptFullBlocks, Xoodyak_DecryptFullBlocks"]}
{"id": "C68", "title": "The ARMv7A assembly with NEON of Keccak-p[1600] is KECCAK-p of FIPS 202", "statement": "The three permutation functions compute KECCAK-p[1600, nr] of FIPS 202 for every state of 200 bytes, whatever the registers contain before; no round constant outside of the table is read, and the lanes saved in the memory of the state during theta are the ones loaded again. The byte access functions meet the contract of the flat byte array for every offset and length within the state, and no byte outside of the buffers is accessed. For no rounds the claim is false (C68_permute_zero).", "quantifier": "all states, register contents, numbers of rounds from 1 to 24, offsets, lengths and data", "why_tests_cant": "2^1600 states; a wrong register or rotation in one of the 120 instructions may show in few bits only, and reads past the table of constants or of the state are not visible in results.", "anchors": ["lib/low/KeccakP-1600/ARMv7A-NEON/KeccakP-1600-armv7a-le-neon-gcc.s: LoadState, StoreState, RhoPi4, KeccakRound, KeccakP1600_Initialize, KeccakP1600_AddByte, KeccakP1600_AddBytes, KeccakP1600_OverwriteBytes, KeccakP1600_OverwriteWithZeroes, KeccakP1600_ExtractBytes, KeccakP1600_ExtractAndAddBytes, KeccakP1600_Permute_Nrounds, KeccakP1600_Permute_12rounds, KeccakP1600_Permute_24rounds, KeccakP1600_Permute"]}
{"id": "C69", "title": "The ARMv7A assembly with NEON of two Keccak-p[1600] keeps two independent states", "statement": "The four permutation functions compute KECCAK-p[1600, nr] of FIPS 202 on each of the two states. The functions on bytes and on lanes act as documented on the state with the given index, or on both states, and leave everything else unchanged. All accesses are within the states, the buffers, the table of constants and the allocated part of the stack, and have the alignment the instructions demand, whatever the addresses of the buffers. The results do not depend on the registers, the stack or the addresses. With the fallback layer the same holds for four and eight states.", "quantifier": "all states, instance numbers, offsets, lengths, numbers of lanes and distances between pieces, data, addresses of buffers, register contents, and stack pointers that are a multiple of 8 and leave room", "why_tests_cant": "2^3200 pairs of states; the rounds keep the lanes in a different place each time, addressed by pointer increments, and the loops on lanes have aligned and unaligned forms for odd and even numbers of lanes.", "anchors": ["lib/low/KeccakP-1600-times2/ARMv7A-NEON/KeccakP-1600-inplace-pl2-armv7a-neon-le-gcc.s: KeccakP1600times2_InitializeAll, KeccakP1600times2_AddByte, KeccakP1600times2_AddBytes, KeccakP1600times2_AddLanesAll, KeccakP1600times2_OverwriteBytes, KeccakP1600times2_OverwriteLanesAll, KeccakP1600times2_OverwriteWithZeroes, KeccakP1600times2_ExtractBytes, KeccakP1600times2_ExtractLanesAll, KeccakP1600times2_ExtractAndAddBytes, KeccakP1600times2_ExtractAndAddLanesAll, KeccakP1600times2_PermuteAll_4rounds, KeccakP1600times2_PermuteAll_6rounds, KeccakP1600times2_PermuteAll_12rounds, KeccakP1600times2_PermuteAll_24rounds", "lib/low/KeccakP-1600-times2/ARMv7A-NEON/KeccakP-1600-times2-SnP.h"]}
{"id": "C70", "title": "The ARMv7A assembly with NEON of four Xoodoo keeps four independent states and the callee-saved registers", "statement": "The permutation functions compute Xoodoo with 12 and with 6 rounds on each of the four states. The functions on bytes and on lanes act as documented on the state with the given index, or on all states, and leave everything else unchanged. All accesses are within the states and the buffers and have the alignment the instructions demand, whatever the addresses of the buffers. The results do not depend on the registers or the addresses. With the fallback layer the same holds for eight and sixteen states. Xoodootimes4_AddLanesAll preserves the registers q4 to q7, as the procedure call standard requires.", "quantifier": "all states, instance numbers, offsets, lengths, numbers of lanes and distances between pieces, data, addresses of buffers and register contents", "why_tests_cant": "2^1536 states; the choice of the aligned, unaligned and transposing code depends on addresses and counts; a test does not see a register that is changed behind the back of the caller unless the compiler happens to use it.", "anchors": ["lib/low/Xoodoo-times4/ARMv7A-NEON/Xoodoo-times4-ARMv7A.s: Xoodootimes4_InitializeAll, Xoodootimes4_AddByte, Xoodootimes4_AddBytes, Xoodootimes4_AddLanesAll, Xoodootimes4_OverwriteBytes, Xoodootimes4_OverwriteLanesAll, Xoodootimes4_OverwriteWithZeroes, Xoodootimes4_ExtractBytes, Xoodootimes4_ExtractLanesAll, Xoodootimes4_ExtractAndAddBytes, Xoodootimes4_ExtractAndAddLanesAll, Xoodootimes4_PermuteAll_6rounds, Xoodootimes4_PermuteAll_12rounds", "lib/low/Xoodoo-times4/ARMv7A-NEON/Xoodoo-times4-SnP.h"]}
{"id": "C71", "title": "The functions for Xoofff in the ARMv7A assembly with NEON of four Xoodoo compute what the serial code does", "statement": "Xooffftimes4_CompressFastLoop and Xooffftimes4_ExpandFastLoop process all groups of four blocks if the data is at a multiple of 4, and none otherwise. The mask, the accumulator and the output are those of the serial code on the blocks processed, the returned length is that of these blocks, the rest of the output is unchanged, and the serial code on the rest gives the result on the whole. Xoofff with these functions is Farfalle with the parameters of Xoofff. Xooffftimes4_AddIs computes what Xoofff_AddIs does for buffers at any addresses. All accesses are within the buffers.", "quantifier": "all masks, accumulators, data, lengths from 192 to 2^32 - 1, addresses of the data, and register contents; for AddIs all bit lengths below 2^32", "why_tests_cant": "The masks and accumulators have 384 bits each; the four masks of a group are made from one vector by zips and transpositions whose errors may show only for particular lanes; the code taken depends on addresses.", "anchors": ["lib/low/Xoodoo-times4/ARMv7A-NEON/Xoodoo-times4-ARMv7A.s: Xooffftimes4_AddIs, Xooffftimes4_CompressFastLoop, Xooffftimes4_ExpandFastLoop", "lib/high/Xoofff/Xoofff.c: Xoofff_Compress, Xoofff_Expand"]}
{"id": "C72", "title": "The functions on bytes in the AVR8 assembly act as documented", "statement": "Initialize, AddByte, AddBytes, OverwriteBytes, OverwriteWithZeroes, ExtractBytes and ExtractAndAddBytes in the compact and the fast AVR8 assembly of Keccak-p[1600] and in that of Xoodoo change exactly the bytes they are documented to change, to the documented values, although they use only the lower bytes of offsets and lengths and count in 8 bits. Nothing else in the memory changes, and no register or I/O address is accessed. Buffers may be anywhere in the memory and may overlap when the source is not before the destination; in particular ExtractAndAddBytes works in place.", "quantifier": "all memory contents, addresses of states and buffers, offsets and lengths within the state", "why_tests_cant": "2^16 addresses for each of three buffers, all contents; the carry from the lower byte of a pointer occurs only for some combinations of address and offset; a write outside of the buffers is not seen by a test that compares the buffers.", "anchors": ["lib/low/KeccakP-1600/AVR8/KeccakP-1600-avr8-compact.s: KeccakP1600_Initialize, KeccakP1600_AddByte, KeccakP1600_AddBytes, KeccakP1600_OverwriteBytes, KeccakP1600_OverwriteWithZeroes, KeccakP1600_ExtractBytes, KeccakP1600_ExtractAndAddBytes", "lib/low/KeccakP-1600/AVR8/KeccakP-1600-avr8-fast.s: the same functions", "lib/low/Xoodoo/AVR8/Xoodoo-avr8-u1.s: Xoodoo_Initialize, Xoodoo_AddByte, Xoodoo_AddBytes, Xoodoo_OverwriteBytes, Xoodoo_OverwriteWithZeroes, Xoodoo_ExtractBytes, Xoodoo_ExtractAndAddBytes"]}
{"id": "C73", "title": "The permutation in the compact AVR8 assembly is Keccak-p[1600, nr]", "statement": "KeccakP1600_Permute_Nrounds, KeccakP1600_Permute_24rounds and KeccakP1600_Permute_12rounds in the compact AVR8 assembly, which work byte by byte with five parity lanes on the stack, a table for rho and pi with rotations by bytes and by bits to the left or to the right, and a round constant table with a terminator, compute KECCAK-p[1600, nr] of FIPS 202 for every number of rounds from 0 to 24. They access only the state, the parity lanes and the tables, and the result does not depend on what is on the stack or in the registers before.", "quantifier": "all states, all numbers of rounds up to 24, all initial contents of stack and registers", "why_tests_cant": "2^1600 states; a wrong rotation or a byte that is missed shows only for some of them; the test vectors use 12 and 24 rounds; reads behind the tables do not fail on AVR.", "anchors": ["lib/low/KeccakP-1600/AVR8/KeccakP-1600-avr8-compact.s: KeccakP1600_Permute_Nrounds, KeccakP1600_Permute_24rounds, KeccakP1600_Permute_12rounds, KeccakP1600_RhoPiConstants, KeccakP1600_RoundConstants_24"]}
{"id": "C74", "title": "The permutation in the AVR8 assembly of Xoodoo is Xoodoo[nr]", "statement": "Xoodoo_Permute_Nrounds, Xoodoo_Permute_6rounds and Xoodoo_Permute_12rounds in the AVR8 assembly, which keep the column parities in registers from round to round, rotate by moving registers and by single bits to the left or to the right, and store the lanes of plane 2 already moved to their place in the next round, compute Xoodoo[nr] for every number of rounds from 0 to 12.", "quantifier": "all states, all numbers of rounds up to 12", "why_tests_cant": "2^384 states; the test vectors use 6 and 12 rounds; a wrong bit at the end of a rotation or a register that is overwritten too early shows only for some states.", "anchors": ["lib/low/Xoodoo/AVR8/Xoodoo-avr8-u1.s: Xoodoo_Permute_Nrounds, Xoodoo_Permute_6rounds, Xoodoo_Permute_12rounds, Xoodoo_RoundConstants_12"]}
{"id": "C75", "title": "The permutation in the fast AVR8 assembly is Keccak-p[1600, nr]", "statement": "KeccakP1600_Permute_Nrounds, KeccakP1600_Permute_24rounds and KeccakP1600_Permute_12rounds in KeccakP-1600-avr8-fast.s, which prepare the parities by lanes, rotate by computed jumps into tables of routines, and push the pointer to the round constants over a byte of the parities, compute Keccak-p[1600, nr] of FIPS 202 for every number of rounds from 0 to 24, at any address of the constants.", "quantifier": "all states, all numbers of rounds up to 24, all addresses of the constants, all contents of the stack and of the registers", "why_tests_cant": "2^1600 states; the test vectors use 24 and 12 rounds; a wrong offset in a jump table or a byte of the stack that is used after it was replaced shows only for some states and addresses.", "anchors": ["lib/low/KeccakP-1600/AVR8/KeccakP-1600-avr8-fast.s: KeccakP1600_Permute_Nrounds, KeccakP1600_Permute_24rounds, KeccakP1600_Permute_12rounds, KeccakP1600_RhoPiConstants, bit_rot_jmp_table, rotate64_0byte_left"]}
{"id": "C76", "title": "An interrupt does not change the result of the AVR8 permutation", "statement": "An interrupt at any point of the fast AVR8 permutation, which stores a return address at the stack pointer, does not change the state that the permutation computes.", "quantifier": "all states, all return addresses, all points of the permutation where interrupts are enabled", "why_tests_cant": "Tests do not control when an interrupt comes, and simulators are usually run without interrupts.", "anchors": ["lib/low/KeccakP-1600/AVR8/KeccakP-1600-avr8-fast.s: KeccakP1600_Permute, Keccak_RoundLoop"]}
