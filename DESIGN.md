# Formal model of XKCP in Lean 4 — design

## 1. Method

* The C code is modelled function by function as total, computable Lean functions.
  Bytes are `BitVec 8`, 32/64-bit machine words are `BitVec 32/64` wherever overflow or
  shifting matters; buffer lengths are the lengths of Lean lists.
* **Undefined behaviour is an outcome.** Every function that touches the permutation state or a
  caller buffer returns an `Option`; `none` means "out-of-bounds access (UB)" or, for loops,
  "the fuel of the loop ran out" (non-termination). All refinement theorems conclude `= some _`, so
  they also prove absence of UB and termination.
* **Permutations are parameters** of the modes (any function on states of the right width);
  the concrete permutations are modelled and related to each other in the low-level part.
* **Specifications are separate** (`Verif/Spec/*`): FIPS 202 sponge and Keccak-p at bit level,
  SP 800-185 encodings, the KangarooTwelve tree, the Cyclist mode, Farfalle, SANE/SANSE/WBC. They do
  not use the helpers of the model.
* Where the code violates a listed property, the negation is proved with a concrete witness and
  the strongest true restriction is proved with a `_partial` name.

Directory layout: `Verif/Base` (bytes, bits), `Verif/Model` (code), `Verif/Spec` (specifications),
`Verif/Proofs` (helper lemmas), `Verif/Props` (one file per area with the property theorems and
their non-vacuity examples).

## 2. Plan per property

| id | modelled | proof |
|----|----------|-------|
| C01 | `SpongeAbsorb` with both paths | every call is a left fold of a one-byte step; folds compose over append |
| C02 | `SpongeSqueeze` | every call is an iteration of a one-byte step; iterations add up |
| C03 | + `AbsorbLastFewBits` | one-byte machine = FIPS 202 bit-level sponge (induction on blocks) |
| C04 | `Sponge` | same one-byte machine; parameter checks on `BitVec 32` |
| C05 | all sponge functions | case analysis on the model; `BitVec 32` sums |
| C06 | all sponge functions | invariant over arbitrary call scripts |
| C07 | padding bytes | uniqueness of the last set bit; lengths modulo the rate |
| C08 | `KeccakHash.c` | 16-bit delimiter arithmetic related to bit lists |
| C09 | `KeccakHash.c` | case analysis |
| C10 | `SimpleFIPS202.c`, reference permutation | C03/C04 + bit-level Keccak-p (C37) |
| C11 | `TurboSHAKE.c` | C01–C05 instantiated |
| C12 | `left_encode`, `right_encode` | big-endian digits, decoder is a left inverse |
| C13 | cSHAKE part of `SP800-185.inc` | refinement to SP 800-185 on top of C03 |
| C14 | KMAC | same |
| C15 | ParallelHash | invariant on (queue, block index); induction over Update calls |
| C16 | TupleHash | refinement + decoder for tuples |
| C17 | phases of all four | case analysis |
| C18 | `KangarooTwelve.c` | invariant on (queue, chunk, block number), fold over updates |
| C19 | `right_encode`, phases | decoder; case analysis |
| C20 | `KeccakDuplex.inc` | duplexing-sponge lemma by induction over the history |
| C21 | `Duplexing` | invariant; counterexample with queued bytes (code violates it) |
| C22 | `DuplexingGetFurtherOutput` | invariant; counterexample for zero length (code violates it) |
| C23 | `KeccakPRG.inc` | one-byte machine |
| C24 | `SpongePRG_Forget` | direct |
| C25 | `Cyclist.inc` | per-block xor cancellation, induction on blocks and on scripts |
| C26 | `Cyclist.inc` | refinement to the Cyclist specification |
| C27 | full-block functions | induction on number of blocks |
| C28 | `Cyclist_AbsorbKey` etc. | bounds via `Option` model |
| C29 | `Kra`/`Xoofff_Compress` | block-at-a-time machine; parallel loops = iterated single step |
| C30 | `Vatte`/`Xoofff_Expand` | same for output |
| C31 | both | refinement to Farfalle |
| C32 | SANE | session induction using C29–C31 abstractly |
| C33 | SANSE | same |
| C34 | WBC | Feistel structure, involutive rounds |
| C35 | WBC-AE | from C34 |
| C36 | `Split` | arithmetic on 64-bit words |
| C37 | all portable Keccak-p | per-round equality of lane functions, induction on rounds |
| C38 | both permutations | explicit inverses of each step |
| C39 | tables, LFSR | complete finite tables evaluated by the kernel, lifted to all rounds |
| C40 | SnP access functions | lane/byte lemmas |
| C41 | `PlSnP-Fallback.inc` | representation map, per operation |
| C42 | Xoodoo | per-round equality |
| C43 | fast loops | induction on number of blocks |
| C44 | bit-length APIs | per API: theorem or counterexample |
| C45 | SIMD times2/times4 | vector = function of lanes; each round macro projected to a lane equals the scalar macro |
| C46 | AVX2 Kravatte functions | the rolled words as one linear recurrence; loop invariant over groups of four blocks |
| C47 | Xoodoo SIMD times4/8/16 | same as C45 with 32-bit lanes; gather and scatter as loads and stores at the offsets |
| C48 | SIMD Xoofff functions | the mask as a word sequence with a linear (or quadratic) recurrence; registers as windows of it; sum over lanes |
| C49 | AVX-512 Keccak-p[1600] | as C45; the in-place rounds as the rounds of FIPS 202 followed by a renaming of lanes; transposition by evaluation on symbolic lanes |
| C50 | single-state SIMD Xoodoo | planes as vectors of four words; the loops by induction with the state of the plain implementation as the view of the registers |
| C51 | XOP and AVX-512 C Keccak-p[1600] | one round lane by lane against the reference round; loops by induction; the stages of the byte functions composed on the byte array |
| C52 | AVX-512 Kravatte functions | as C46 with groups of eight; the sum over lanes by evaluation of the index vectors; for i386 a message built with the inverse of the permutation |
| C53 | standalone compact FIPS 202 code | each step of the permutation against the lanes of C37; the walk of rho and pi by simulation; the sponge loops against the byte machine of C05/C10; definedness by inversion of the loops |
| C54 | standalone KangarooTwelve in Rust | the permutation by the lemmas of C53 for the same loops; `F` against the byte machine with a "full block not yet permuted" view of the state; chunks, chaining values and final node against RFC 9861; definedness from the size limit of a `Vec` |
| C55 | standalone Python implementations | lanes as integers of a `BitVec 64`; the same loops as C53; numpy arrays against the step mappings lane by lane; the sponge loops against the byte machine, with results independent of the fuel; the remaining arguments by the Python rules for negative indices |
| C56 | AVX2 Keccak-p[1600] in assembly | instruction by instruction; each register of the round as four lanes against the step mappings; byte functions by an invariant 'k bytes written' through the lane map; fast loops by induction on the blocks |
| C57 | AVX-512 Keccak-p[1600] in assembly | as C56; the second round of a pair through the arrangement 'lane (x, y) in register x - y'; the loads and stores with masks as those of C51 |
| C58 | KeccakSum | encodings: induction over the data by one or three bytes, with the bound check of every character; program: a relation between the variables and what is selected (`Rel`), preserved by each option; digests from C08, C15 and C18; induction over the command line |
| C59 | x86-64 Keccak-p[1600] in assembly | the three files through one model with the variant as a parameter; each round against the round of the portable lane-complementing code (C37), the parities carried between rounds as an invariant; byte functions by an invariant over the two loops, `AddBytes` by composing additions of consecutive blocks |
| C60 | ARMv8-A Keccak-p[1600] in assembly | theta, rho and pi, chi and iota lane by lane against the reference code (C37), with the lanes in pairs in vector registers; the three loops of the byte functions by one lemma on a sequence of intermediate states |
| C61 | SUPERCOP interface | Xoodyak scripts of the two submissions (`Spec/XoodyakAead`), the inverse property of Cyclist (C25) for the acceptance of exactly the valid ciphertexts, C10 for SHA-3 |
| C62 | 32-bit ARM assembly of Xoodoo | each round against the reference round through a view of the registers that rotates the planes by the offsets carried from round to round; Xoofff and Xoodyak functions by the lemmas of C50; byte loops by one lemma on a sequence of intermediate states |
| C63 | in-place 32-bit ARM assembly of Keccak-p[1600] | each of the four rounds against the round of the portable in-place code (C37) by evaluation on symbolic registers; the loop and its four entry points as there; bit interleaving bit by bit; the three parts of the byte functions by one lemma on intermediate states |
| C64 | in-place ARMv6-M assembly of Keccak-p[1600] | the moving pointer to the state is removed macro by macro, which gives a machine with a fixed pointer; then as C63. The byte functions are proved equal to those of C63, the accesses to buffers by words and by bytes being equal |
| C65 | ARMv6-M assembly of Keccak-p[1600] with a second state on the stack (one and two rounds in the loop) | pointers into the two states are removed macro by macro, which gives one machine that reads a state and writes another, for both programs; its round against the round of the portable code (C37) by evaluation on symbolic registers; then the loops, with the parity of the number of rounds as the invariant that says which state is read. The byte functions are those of C64 |
| C66 | ARMv6-M assembly of Xoodoo, Xoofff and Xoodyak | the macros by evaluation on symbolic registers against the reference round; words read and written byte by byte equal whole words; then each function simulates that of C62 (same lanes in both machines), whatever the alignment; byte loops that go down by one lemma on a buffer of values |
| C67 | ARMv7A assembly with NEON of Xoodoo, Xoofff and Xoodyak | one lemma per register of the round against the planes of C50; induction on the rounds with the pointer to the constants; a frame (registers from `q6` on) for the loops that keep values over the permutation; `Xoofff_AddIs` by a lemma shared with C62 on the bodies of its loops |
| C68 | ARMv7A assembly with NEON of Keccak-p[1600] | the rotation macro by a lemma on which registers its two halves write; one equation per lane for theta (part of the state is in memory), rho, pi and chi against FIPS 202; induction on the rounds with the pointer to the constants; no rounds refuted |
| C69 | ARMv7A assembly with NEON of two Keccak-p[1600] | the pointers into the states and the stack evaluated symbolically; the four arrangements of the lanes in memory as permutations, one equation per lane; byte and lane loops by induction against a list of pairs of lanes; both the aligned and the unaligned loops |
| C70 | ARMv7A assembly with NEON of four Xoodoo | one state of the four as a projection of the registers, under which each macro of a round is the step of the C code; byte loops by induction; the transposition by `vuzp` and `vtrn` evaluated lane by lane; the callee-saved registers as part of the result |
| C71 | functions for Xoofff in the ARMv7A assembly with NEON of four Xoodoo | a loop invariant relating the 16 words of the rolled mask and the four partial accumulators to `eat` and `gen` of the serial code; the zips and transpositions evaluated lane by lane; the alignment test as a case distinction |
| C72 | functions on bytes in the AVR8 assembly of Keccak-p[1600] and Xoodoo | one memory with addresses of 16 bits; the loops with 8-bit counters as a number of copies of their body; what has been written so far as the invariant, with sources that are disjoint from or not before the destination |
| C73 | permutation in the compact AVR8 assembly of Keccak-p[1600] | bytes of lanes: each loop on bytes as a sequence of states, the rotations on registers as rotations of lanes, the rho-pi loop as a walk through the table, then the round of the reference code |
| C74 | permutation in the AVR8 assembly of Xoodoo | four bytes as a lane: `lsl`, `rol`, `adc` and `bst`, `ror`, `bld` as rotations, moves of registers as rotations by 8; the columns of chi with the values in the order they are overwritten |
| C75 | permutation in the fast AVR8 assembly | the jumps to the routines for rotations give the rotations of C73; the other steps are those of C73; the byte of `C` that `push` replaces is not used before it is set again |
| C76 | interrupts during that permutation | a byte stored at the stack pointer as a change of the first byte of `C`; a round for any bytes in `C` |

## 3. Trusted base

* Lean 4 kernel; axioms `propext`, `Classical.choice`, `Quot.sound` only.
* The reading of the C sources embodied in `Verif/Model`. Assumptions common to all models:
  `unsigned int` is 32 bits, `size_t` is 64 bits, buffers passed by the caller have at least the
  announced length and do not alias the instance; buffer lengths are below 2^64.
* ParallelHash and KangarooTwelve process leaves in parallel through PlSnP (`times2/4/8`) and
  `KTxxx_ProcessLeaves`. In their models a parallel state is a list of independent
  states, each operation acting lane-wise as its contract in the PlSnP documentation says
  (`Model/PlSnP.lean`); the interleaving and the 32-bit lane-offset arithmetic at the call sites are modelled.
  For the SSSE3/XOP, AVX2 and AVX-512 implementations the contract is proved (C45, `C45_fastLoop_model`, C49, `C49_fastLoop_model`).
* The meaning of the SSE2, SSSE3, XOP, AVX2 and AVX-512 intrinsics used (`Model/Simd.lean`, `Model/Simd32.lean`), as described in the Intel and AMD manuals.
  A vector is a function from lane numbers to 64-bit (32-bit) words. The alignment required by the aligned loads and stores is not
  modelled: the headers align the states, but the constants `rho8` and `rho56` of `KeccakP-1600-times2-SIMD128.c:58-59` are loaded with
  `_mm_load_si128` although they are arrays of `uint64_t` without an alignment attribute.
* `KTxxx_ProcessLeaves` is a parameter whose contract (the chaining values of RFC 9861, `KT.CfgFits`) is an
  explicit hypothesis of C18 and C19. For the AVX-512 functions it is proved (`C49_cfg`). The KangarooTwelve theorems bound the input by 2^75 bytes because
  `blockNumber` is a 64-bit counter of 8192-byte chunks.
* The meaning of the AArch64 instructions used in `Model/KeccakArmv8Asm.lean` and of the 32-bit ARM instructions used in
  `Model/XoodooArm.lean`, `Model/KeccakArm32.lean`, `Model/KeccakArmv6m.lean`, `Model/KeccakArmv6mU.lean`, `Model/XoodooArmv6m.lean`, `Model/XoodooNeon.lean`, `Model/KeccakNeon.lean`, `Model/Times2Neon.lean`, `Model/XoodooTimes4Neon.lean` and `Model/XoodooTimes4NeonXoofff.lean`, as described in the Arm manuals.
* The meaning of the AVR instructions used in `Model/Avr8.lean`, `Model/Avr8Keccak.lean`, `Model/Avr8Fast.lean` and `Model/Avr8Xoodoo.lean`, and that `push` and interrupts store at the address in the stack pointer before it is decremented, and that `r1` is 0 at a call, as the calling convention of GCC demands.
* The build system, the test code and the debugging
  (`KeccakReference` display) code are not modelled.
* Kravatte and Xoofff: the SIMD functions for groups of blocks (`..._CompressFastLoop`, `..._ExpandFastLoop` with a degree above 1)
  are parameters with an explicit contract (`Farfalle.PathOk`). The loops over PlSnP and the roll functions are modelled and
  proved to meet it. The AVX2 and AVX-512 functions for Kravatte and all SIMD functions for Xoofff
  are modelled and proved to meet it (C46, C52, C48, C71).

## 4. Findings

Places where the code does not do what the property or the documentation says. Each is a theorem.

* **F4** (cSHAKE, KMAC, TupleHash): when the bit length of the customisation string or of the KMAC key
  is not a multiple of 8, the unused bits of the last byte are absorbed as they are. The functions
  conform to SP 800-185 only when these bits are zero (`SP800185.C13_stray_custom_bits`).
* **F5** (ParallelHash): the parallel code passes the block length and lane offsets as `unsigned int`. For a
  block length of 2^32 bytes and degree 2, distinct messages of 2^33 bytes collide for every permutation
  (`ParallelHash.C15_large_blocks_collide`); for a block length of 2^61 bytes and degree 8 the product wraps to
  0 and an empty Update reads out of bounds (`ParallelHash.C15_huge_blocks_undefined`). Both block lengths are
  accepted by `ParallelHash_Initialize`.
* **F6** (TupleHash): `TupleHash_Update` with no element returns 0 in every phase, also after Final; and with a
  misaligned element that is not the first of the array it returns 1 after having absorbed the elements before
  it (`SP800185.C17_TupleHash_midarray`, `_changes`).
* **F7** (Duplex): the check of the trailing bits in `Duplexing` (KeccakDuplex.inc:64-66) uses
  `rho_max - sigmaBeginByteLen*8` and forgets the bytes already queued. With bytes queued and a delimited last
  byte that does not fit, the call returns 0 and flips bits of the capacity part, or cancels the last padding bit
  (`Duplex.C21_violated`; everything else is `Duplex.C21_capacity_partial`).
* **F8** (Duplex): `DuplexingGetFurtherOutput[AndAdd]` with a length of 0 writes to `output[-1]` when the last,
  incomplete byte of the block has been output or nothing has been duplexed yet and the rate is not a multiple of
  8 (`Duplex.C22_violated`). `Duplex.C22_bounds_iff` proves that this is the only out-of-bounds access.
* **F9** (Duplex): further output requested at positions where input has been queued is the sum of the output and
  of that input (`Duplex.C22_queue_violated`). The documentation does not exclude this order of calls.
* **F10** (Keccak-p, compact 64-bit): `KeccakP1600_Permute_Nrounds(state, 0)` runs 256 rounds, because the round index
  is an 8-bit variable compared after the first round (`KeccakP1600.C37_compact_zero`); the other implementations run
  none. For more than 24 rounds the optimised 64-bit implementation indexes its constant table out of bounds; C37 is
  stated for 1 to 24 rounds. (`Xoodoo_Permute_Nrounds` above 12 rounds runs none, in both implementations.)
* **F11** (Xoodoo, not a theorem): `plain/Xoodoo-optimized.c` tests `PLATFORM_BYTE_ORDER == IS_LITTLE_ENDIAN` without
  including the header that defines these macros. Undefined macros compare equal, so the little-endian code is
  compiled on every platform and the `#error` for other byte orders is never reached.
* **F12** (Kravatte, Xoofff): `Kra`/`Xoofff_Compress` set the padding bit in the last byte of the string without clearing
  the unused bits, so the one-bit string 0 in a byte 0x80 collides with the seven-bit string 0100000
  (`Farfalle.C44_farfalle_collision`). The mask derivation does clear them (`Farfalle.C44_farfalle_key`).
* **F13** (Kravatte, Xoofff, not a theorem): `Vatte`/`Xoofff_Expand` compute `(outputBitLen + 7) / 8`, which wraps for lengths of
  2^64 - 7 bits and more. C30 and C31 exclude these lengths. Output asked for after an unfinished string of whole blocks
  is not refused, and is then not Farfalle of anything (`none` in the specification of C31).
* **F14** (SANE): the function that adds a string and its separation bits to the history does not clear the unused bits of the
  last byte either. A stray bit in the position of the separation bit turns associated data into ciphertext
  (`Farfalle.C44_sane_collision`). SANSE masks the byte and is not affected (`Farfalle.C44_sanse`).
* **F15** (WBC, WBC-AE): `Split` doubles `1 << x` with `x` up to 31 in an `int`, undefined for data of more than 2^30 blocks (51 GB for
  Xoofff, 214 GB for Kravatte; `Farfalle.C36_false`, `Farfalle.C34_false`). C34 to C36 are proved below that bound.
* **F16** (`KeccakF1600times##_FastLoop_Absorb`): the loop subtracts `laneOffsetSerial*8` from the remaining length after an
  iteration that only checked for `((D-1)*laneOffsetParallel + laneCount)*8` bytes. With a larger `laneOffsetSerial` the length wraps
  around and the loop reads past the data (`PlSnPFallback.C41_fastLoop_false`); the documentation has no precondition against it. The
  callers in the repository pass `laneOffsetSerial = laneCount`, and for that the loop is proved (`C41_fastLoop_partial`). The same
  holds for the loops of the SIMD implementations (`ParallelSimd.C45_fastLoop_times2_false`, `_times4_false`, `C45_fastLoop_*_partial`,
  `KeccakAvx512.C49_fastLoop_false`, `C49_fastLoop_partial`).
* **F17** (`KeccakP-1600-inplace32BI.c`): `KeccakP1600_Permute_Nrounds(state, 0)` enters its `do` loop and reads the table of
  round constants past its end (undefined; `C37_inplace32_zero`).  The reference implementations leave the state unchanged.
  In the big-endian path, which is not modelled, `KeccakP1600_ExtractAndAddLanes` (line 421) computes the second output word
  from word 0 of the input lane instead of word 1.
* **F18** (`KeccakP-1600-times4-SIMD256.c:1157-1160`): on i386 the macro `_mm256_extract_epi64` joins the
  two halves of a word with `||` instead of `|`, so that every word it extracts is 0 or 1. `KravatteCompress` uses it to store the
  rolled mask and is therefore wrong on i386 (`KravatteSimd.C46_i386_false`). The AVX2 Keccak-p[1600] functions do not use the macro.
* **F19** (Xoodoo SIMD, not a theorem): `Xoodoo-times8-SnP.h:44` (AVX2) and `Xoodoo-times16-SnP.h:44` declare `PermuteAll_Nrounds`, which no file
  defines. `Xoodoo-times4-SIMD512.c:441` defines a macro (not used) with `_mm_permutexvar_epi32`, which is not an Intel intrinsic.
* **F20** (SIMD Xoofff, not a theorem, alignment is not modelled): `_mm512_maskz_load_epi64` and `_mm512_mask_store_epi64` in the `AVX512` files for 8 and
  4 states need 64-byte alignment of `x32`, but `Xoofff.h:60, 66` aligns the accumulator to 32 or 16 bytes when only these are in the build.
  All AVX-512 targets of the build files also have the 16-state file, for which the alignment is 64.
* **F21** (`KeccakP-1600-times8-SIMD512.c:1208-1270`, not a theorem): with `KeccakP1600times8_unrolling` equal to 4 the functions
  `KeccakP1600times8_KT128ProcessLeaves` and `_KT256ProcessLeaves` do not compile, since `rounds12` uses a variable `i` they do not declare.
* **F22** (`SSE2/Xoodyak-full-block-SIMD128.c:336-362`, `AVX512/Xoodyak-full-block-SIMD512.c:313-321`): `Xoodyak_DecryptFullBlocks` writes bytes
  16 to 23 of the plaintext block before it reads the same bytes of the ciphertext block again. When it works in place the output is right, but
  the state then contains bytes of the plaintext (`XoodooPlanes.C50_decrypt_inplace`, `C50_decrypt_inplace_false`), so that later blocks and the
  tag are wrong. The plain implementation works in place, and so do the encryption functions (`C50_encrypt`). Not a theorem: in the variant for
  32-bit targets without SSE4.1 (lines 349-356 of the SSE2 file) `_mm_cvtsi128_si32` is called with two arguments, which does not compile.
* **F23** (`KeccakP-1600-times8-SIMD512.c:1331-1334`): the same macro as in F18. Here `KravatteCompress` uses it for the last word of the
  accumulator, to which on i386 it therefore adds 0 or 1 whatever the message (`KravatteSimd512.C52_i386_false`). `KravatteExpand` is right.
* **F24** (`Keccak-readable-and-compact.c:290`): the check of the parameters of `Keccak` accepts rate 0 with capacity 1600 and, because the sum
  is computed modulo 2^32, rates such as 0xFFFFFFF8 with capacity 1608. In both cases the function does not end or writes outside
  of the state (`Compact202.C53_readable_bad_rate`); `C53_readable_defined` says exactly when it is defined. `Keccak-more-compact.c` checks
  nothing (`C53_more_defined`), ignores the capacity and rounds the rate down.
* **F25** (`Keccak-readable-and-compact.c:77-88`): the output length of `FIPS202_SHAKE128/256` is an `int`. A negative one becomes a length of almost
  2^64 bytes (`Compact202.C53_readable_negative`). The input length is an `unsigned int`: longer messages cannot be hashed.
* **F26** (`TweetableFIPS202.c:88-90`): `k` loses the most significant bit of the suffix when only one byte of the last block is free, so that two
  suffixes give the same output (`Compact202.C53_tweet_suffix`). The functions of FIPS 202 use suffixes of 2 and 4 bits and are right.
* **F27** (not a theorem): without `DEBUG`, `TweetableFIPS202-stub.c` ends with an `else` without a statement and does not compile.
* **F28** (not a theorem): `read_u64` of `k12.rs` dereferences a `*const u64` made from a `&[u8; 8]` inside the `[u8; 200]`
  state, which need not be aligned; this is undefined in Rust. Two comments say that the tests pass without the two conditional calls of the
  permutation before padding, and ask why they are there: the first one is needed whenever the input of `F` is a multiple of 168 bytes
  (removing it breaks `K12Rust.C54_F` and `C54_KangarooTwelve`, see `seeded/LOG.jsonl`), the second one only for suffixes of 0x80 and above, which
  `KangarooTwelve` does not use.
* **F29** (`Py202.C55_defined`, `Py202.C55_suffix`): `Keccak` of the two Python files checks only `rate + capacity` and `rate % 8`.
  A rate above 1600 with a negative capacity passes the check and raises `IndexError` (after absorbing); a rate of zero or
  below loops for ever unless message and output are empty, in which case it returns an empty output because the index -1
  (or -rate/8-1 from the end) is valid in Python; a suffix outside 0..255 raises `ValueError`.
* **F30** (`Avx2Asm.C56_permute_zero`): `KeccakP1600_Permute_Nrounds` of `KeccakP-1600-AVX2.s` tests its counter after the round. With `nr = 0`,
  for which the portable implementations leave the state unchanged, it reads a round constant after the end of the table and continues for
  2^32 rounds.
* **F31** (`KeccakSum.C58_not_reset`, `KeccakSum.C58_not_reset_k12`): the options `--shake128`, `--shake256`, `--sha3-*` and `--ethereum` of KeccakSum do not
  set `specs.algorithm` back to Keccak. After `--ph128`, `--sha3-384 file` prints an error message and stops; after `--k12`, `--sha3-256 file` silently prints
  the KT128 digest of 256 bits, in hexadecimal. `C58_partial` asks that no such option comes after one of KangarooTwelve or ParallelHash.
* **F32** (`KeccakSum.C58_hex_limit`): an output length of 524288 bits passes the check of KeccakSum, but its hexadecimal form has 131072 characters and there is
  no room for the zero at the end, so the program refuses it after having read the input.
* **F33**: `KeccakSum.c:70` calls `KangarooTwelve_Initialize` with two arguments, while the header declares three (the security level is missing), so that the file
  does not compile as it is. It is modelled as if the missing argument were 128. The result of `processString` is not used (line 364), so that errors in
  `--string` do not change the exit status, and read errors are taken for the end of the file.
* **F34** (`X64Asm.C59_permute_zero`): `KeccakP1600_Permute_Nrounds` of the x86-64 assembly jumps through `Table - 8 + 8 * nrounds`. With no rounds, for which the
  portable implementations leave the state unchanged, it takes the 8 bytes of code before the table for an address. More than 24 rounds read past the table.
* **F35** (`X64Asm.C59_fastLoop_25`): `KeccakF1600_FastLoop_Absorb` of the x86-64 assembly adds the lane of trailing bits after the block, so that with 25 lanes
  it writes the 8 bytes after the state (even if there are no trailing bits). The function is exported but declared in no header, and no mode calls it.
* **F36** (`Armv8Asm.C60_permute_zero`): `KeccakP1600_Permute` of the ARMv8-A assembly tests the counter after the round. With no rounds, for which the portable
  implementations leave the state unchanged, it takes what follows the table of constants for constants, and goes on for 2^32 rounds.
* **F37** (not a theorem): `tests/SUPERCOP/KangarooTwelve/K12.c` calls `KangarooTwelve(in, inlen, out, crypto_hash_BYTES, 0, 0)`, but the function has seven arguments, the
  first of which is the security level (KangarooTwelve.h:50). The file does not compile against the header, and it is not modelled.
* **F38** (`KeccakP1600.Arm32.C63_zero`, `KeccakP1600.Arm6.C64_zero`, `KeccakP1600.Arm6U.C65_zero`, `XoodooArm6.C66_zero`, `KeccakNeon.C68_permute_zero`): `KeccakP1600_Permute_Nrounds` of the 32-bit ARM assembly and `Xoodoo_Permute_Nrounds` of the
  ARMv6-M assembly with no rounds read past the table of round constants, as the in-place C code does.
* **F39** (`XoodooArm6.C66_crypt_fault`): `Xoodyak_EncryptFullBlocks` and `Xoodyak_DecryptFullBlocks` for ARMv6-M choose between the code for aligned and for
  other pointers by `ands` of the two pointers (Xoodyak-u1-armv6m-le-gcc.s:880-883, 1051-1054), where the other functions use `orrs`. If no low bit is set in both
  pointers but one pointer is not a multiple of 4, for instance a plaintext at an odd address and an aligned ciphertext, the word accesses are taken, and these fault on
  ARMv6-M. `C66_crypt_partial` is the result for all other pointers.
* **F40** (`XoodooTimes4Neon.C70_clobbers`, `C70_registers_fails`): `Xoodootimes4_AddLanesAll` for ARMv7-A with NEON, for 12 lanes from four consecutive blocks at a multiple
  of 4 (Xoodoo-times4-ARMv7A.s:97-102, 176-213), loads `d0` to `d23` without saving `d8` to `d15`, which the Arm procedure call standard requires a function to
  preserve. It returns with lanes 6, 10, 1 and 5 of the data in `q4`, ..., `q7`. A caller that keeps a floating-point or vector variable in these
  registers across the call finds it changed. The permutation functions of the same file do save them. The call at Xoofff.c:148 has these arguments, but with this
  implementation the library takes the fast loop instead; other callers of the interface are affected. `C70_registers_partial` is the result for all other calls.
* **F41** (`Avr8.Keccak.C73_permute_zero`): `KeccakP1600_Permute_Nrounds` in the compact AVR8 assembly looks for the terminator of the table after a round
  (KeccakP-1600-avr8-compact.s:686-690). With no rounds it takes the terminator and the program memory behind the table as a round constant, and goes on until it finds a byte
  0xFF at a distance that is a multiple of 8. `C73_permute_partial` is the result for 1 to 24 rounds.
* **F42** (`Avr8.Xoodoo.C74_permute_zero`, `C74_zero_changes`): the same in `Xoodoo_Permute_Nrounds` for AVR8 (Xoodoo-avr8-u1.s:1317-1321). `C74_permute_partial` is the result
  for 1 to 12 rounds.
* **F43** (`Avr8.Fast.C75_permute_zero`): the same in `KeccakP-1600-avr8-fast.s` (lines 433-442). `C75_permute_partial` is the result for 1 to 24 rounds.
* **F44** (`Avr8.Fast.C76_interrupt_changes`): the five lanes `C` are allocated at the address in the stack pointer (KeccakP-1600-avr8-fast.s:482-490), but on AVR that is the address where the
  next byte is pushed; the lanes should start one byte above it. Interrupts are not disabled, so an interrupt while `C` is in use replaces its first byte, and the result is wrong. The `push` in rho and pi (line 725)
  replaces the byte too, but `C` is not in use then. `C76_interrupt_partial` is for an interrupt at that place. The compact code allocates `C` in the same way (KeccakP-1600-avr8-compact.s:328-335).

## 5. What is modelled

| source | model | not modelled |
|--------|-------|--------------|
| `high/Keccak/KeccakSponge.inc`, `FIPS202/*`, `SimpleFIPS202.c`, `TurboSHAKE`, `KeccakHash.c` | `Model/Sponge`, `Model/KeccakHash` | widths are a parameter |
| `low/common/PlSnP-Fallback.inc` | `Model/PlSnPFallback`, `Model/PlSnPSingle`: on raw memory, over any base implementation | nothing in this version of the repository includes the file; in-place `ExtractAndAddLanesAll` |
| `high/Keccak/SP800-185/SP800-185.inc/.c` | `Model/SP800185`, `Model/ParallelHash` | SIMD inside PlSnP |
| `high/KangarooTwelve/KangarooTwelve.c` | `Model/KangarooTwelve` | `ProcessLeaves` of the AVX2 assembly and NEON back-ends |
| `high/Keccak/KeccakDuplex.inc`, `PRG/KeccakPRG.inc` | `Model/Duplex` | |
| `low/KeccakP-1600/ref-64bits` | `Model/KeccakP1600` | display code, big-endian paths |
| `low/KeccakP-1600/compact`, `plain-64bits` (`KeccakP-1600-opt64.c`, `.macros`, `SnP-Relaned.h`) | `Model/KeccakP1600Opt`, `Model/Relaned` | `useSHLD` assembly, `NO_MISALIGNED_ACCESSES`, big-endian paths |
| `low/KeccakP-1600/ref-32bits`, `plain-32bits-inplace` | `Model/KeccakP1600Ref32`, `Model/KeccakP1600Inplace32` | display code, big-endian paths (see F17 for a slip in one of them) |
| `low/Xoodoo/ref`, `low/Xoodoo/plain/Xoodoo-optimized.c` | `Model/Xoodoo` | alignment of the `uint32_t *` casts in the 48-byte paths |
| `high/Xoodyak/Cyclist.inc`, `low/Xoodoo/plain/Xoodyak-full-blocks.c` | `Model/Xoodyak` | trace output, assertions, overlapping input and output buffers |
| `high/Kravatte/Kravatte.c`, `high/Xoofff/Xoofff.c` | `Model/Farfalle` (one model, the differences are parameters) | SIMD functions, trace output |
| `high/Kravatte/KravatteModes.c`, `high/Xoofff/XoofffModes.c` (SANE, SANSE, WBC, WBC-AE) | `Model/FarfalleModes` | overlapping input and output buffers |
| `low/KeccakP-1600-times2/SIMD128`, `low/KeccakP-1600-times4/AVX2`, `KeccakP-1600-unrolling.macros` | `Model/Simd` (intrinsics), `Model/SimdRounds`, `Model/Interleaved` (byte functions), `Model/Times2`, `Model/Times4` | alignment; paths without SSE2 in `ExtractLanesAll`; in-place `ExtractAndAddLanesAll`; the output pieces of the lane functions do not overlap (`laneCount <= laneOffset`) |
| `low/Xoodoo-times4/SSSE3`, `low/Xoodoo-times8/AVX2`, `low/Xoodoo-times{4,8,16}/AVX512` | `Model/Simd32` (intrinsics), `Model/Interleaved32` (byte functions), `Model/XoodooSimd` | alignment; in-place `ExtractAndAddLanesAll`; overlapping output pieces |
| `CompressFastLoop`, `ExpandFastLoop`, `AddIs` in `Xoodoo-times8-SIMD256.c` and `Xoodoo-times{4,8,16}-SIMD512.c` | `Model/XoofffSimd` | alignment; calls with less than one group of blocks |
| `low/KeccakP-1600-times{2,4,8}/AVX512` | `Model/KeccakAvx512` (the three files, as one model) | alignment; in-place `ExtractAndAddLanesAll`; overlapping output pieces; `SIMULATE_AVX512` |
| `low/Xoodoo/SSE2`, `low/Xoodoo/AVX512` | `Model/XoodooPlanes` | alignment; partial overlap of input and output in decryption; the variant of F22 that does not compile |
| `low/KeccakP-1600/XOP`, `low/KeccakP-1600/AVX512/C` | `Model/KeccakXop`, `Model/KeccakPlane512` | alignment; in-place `ExtractAndAddBytes`; the C versions of the intrinsics under `SIMULATE_AVX512` (that of `_mm512_rolv_epi64` shifts a 64-bit word by 64) |
| `KravatteCompress`, `KravatteExpand` in `KeccakP-1600-times8-SIMD512.c` | `Model/Times8Kravatte` | alignment; calls with fewer than 1600 bytes |
| `KravatteCompress`, `KravatteExpand` in `KeccakP-1600-times4-SIMD256.c` | `Model/Times4Kravatte` | alignment; calls with fewer than 800 bytes (the `do` loop then wraps around; the callers check) |
| `Standalone/CompactFIPS202/C` | `Model/CompactFIPS202` | the `LITTLE_ENDIAN` variant of the lane accesses (casts of the state to `uint64_t *`, which assume alignment); `genKAT.c` and the test program |
| `Standalone/KangarooTwelve/Rust/k12.rs` | `Model/K12Rust` | big-endian targets (`to_le`), alignment (F28), 32-bit `usize`; running out of memory. A panic is `none`; debug builds are assumed for arithmetic overflow (none occurs) |
| `low/KeccakP-1600/AVX2/KeccakP-1600-AVX2.s` | `Model/X86` (integer instructions, byte loops), `Model/KeccakAvx2Asm`, `Spec/Avx2Layout` | registers are variables, the stack and the callee-saved registers are not represented; `unsigned int` arguments are taken to be zero-extended to 64 bits; addresses are offsets into the areas passed (state, data, tables), which do not overlap and do not wrap around, an access outside is undefined; alignment of the state; the meaning of the instructions is written from the Intel manual and is part of the trusted base |
| `low/KeccakP-1600/AVX512/KeccakP-1600-AVX512.s`, `AVX512/KeccakP-1600-SnP.h` | `Model/X86`, `Model/KeccakAvx512Asm` (masked loads and stores, permutations and blends from `Model/KeccakPlane512`) | as for the AVX2 assembly |
| `util/KeccakSum/KeccakSum.c`, `base64.c`, `base64.h` | `Model/KeccakSum` | `printf` of messages and help as one item; files by their contents, `fread` as reading up to 65536 bytes until nothing is left, no read errors; `sscanf("%d")` by its documented behaviour, a value that does not fit in an `int` being undefined; missing argument of `KangarooTwelve_Initialize`, see F33 |
| `low/KeccakP-1600/x86-64/KeccakP-1600-x86-64-gas.s`, `-shld-gas.s`, `-gas_Apple.s`, `x86-64/KeccakP-1600-SnP.h` | `Model/KeccakX64Asm`, `Spec/LaneComplement` | as for the AVX2 assembly; the macros of the permutation work on the state and on the area reserved on the stack as 25 lanes each, all other uses of the stack (saved registers, return addresses) are not represented; `trailingBits` is taken from the whole register |
| `low/KeccakP-1600/ARMv8A/KeccakP-1600-armv8a-neon.s`, `ARMv8A/KeccakP-1600-SnP.h` | `Model/KeccakArmv8Asm` | as for the AVX2 assembly; numbers of rounds above 24 (an address before the table) are undefined |
| `tests/SUPERCOP/Xoodyak_aead/encrypt.c`, `Xoodyak_aead_round3/encrypt.c`, `Xoodyak_hash/hash.c`, `SHA3-224/SHA3-224.c`, …, `SHAKE256/SHAKE256.c` | `Model/Supercop` | overlapping buffers (excluded by `CRYPTO_NOOVERLAP`), the self-tests and the test drivers, `KangarooTwelve/K12.c` (F37); other files of `tests/` |
| `low/Xoodoo/ARM/Xoodoo-uf-armv7m-le-gcc.s`, `Xoodyak-uf-armv7m-le-gcc.s`, `Xoodoo-SnP.h`; the `armv6` files, which have the same instructions; the `armcc` files are the same programs for another assembler | `Model/XoodooArm` | saving of registers; overlapping buffers except in the Xoodyak functions for encryption and decryption |
| `low/Xoodoo/ARM/Xoodoo-u1-armv6m-le-gcc.s`, `Xoodyak-u1-armv6m-le-gcc.s`; the `armcc` files are the same programs for another assembler | `Model/XoodooArmv6m` | saving of registers (those pushed and popped around a block are said in the comments); overlapping buffers except in the Xoodyak functions for encryption and decryption; word accesses at addresses that are not multiples of 4 are faults (`none`) |
| `low/Xoodoo/ARMv7A-NEON/Xoodoo-uf-armv7a-neon-le-gcc.s`, `Xoodyak-uf-armv7a-neon-le-gcc.s`; the `armcc` files are the same programs for another assembler | `Model/XoodooNeon` | saving of registers; the alignment hints of the loads and stores of states; the byte functions have the instructions of `Xoodoo-uf-armv7m-le-gcc.s` and are taken from `Model/XoodooArm`; overlapping buffers except in the Xoodyak functions for encryption and decryption |
| `low/KeccakP-1600/ARMv7A-NEON/KeccakP-1600-armv7a-le-neon-gcc.s`; the `armcc` file is the same program for another assembler | `Model/KeccakNeon` | saving of registers; buffers that overlap with the state; code within `.if 0`; `LoopUnroll` other than 1 |
| `low/KeccakP-1600-times2/ARMv7A-NEON/KeccakP-1600-inplace-pl2-armv7a-neon-le-gcc.s` and its header; the `armcc` file is the same program for another assembler | `Model/Times2Neon` | saving of registers; `input` and `output` that overlap with each other or with the states; operating systems that forbid unaligned `ldr` and `str`; `StaticInitialize`, which is empty; the macros `KeccakS_*`, which are not used |
| `low/Xoodoo-times4/ARMv7A-NEON/Xoodoo-times4-ARMv7A.s` (lines 1-945) and its header | `Model/XoodooTimes4Neon` | `push`, `pop`, `vpush`, `vpop`; `input` and `output` that overlap with each other or with the states; `StaticInitialize`, which is empty |
| the same file, lines 946-1587 | `Model/XoodooTimes4NeonXoofff` | `push`, `pop`, `vpush`, `vpop`; buffers that overlap; lengths below 192 of the fast loops, with which they are not called; masks and accumulators not at a multiple of 4 (`Xoofff.h` aligns them to 16); `ldr` and `str` of words that are not aligned are taken as permitted |
| `low/KeccakP-1600/AVR8/KeccakP-1600-avr8-compact.s` (lines 1-205), `KeccakP-1600-avr8-fast.s` (lines 1-360), `low/Xoodoo/AVR8/Xoodoo-avr8-u1.s` (lines 1-360) | `Model/Avr8`, `Spec/Avr8` | the permutations; `push` and `pop` |
| `low/KeccakP-1600/AVR8/KeccakP-1600-avr8-compact.s` (lines 207-726) | `Model/Avr8Keccak` | `push`, `pop` and the allocation on the stack; the state and the lanes on the stack are two arrays that do not overlap |
| `low/Xoodoo/AVR8/Xoodoo-avr8-u1.s` (lines 362-1341) | `Model/Avr8Xoodoo` | `push` and `pop`; the instructions for the four bytes of a lane are grouped |
| `low/KeccakP-1600/AVR8/KeccakP-1600-avr8-fast.s` (lines 362-1121) | `Model/Avr8Fast` | saving of registers and the allocation of `C`; theta, chi and the round constants are the definitions of `Model/Avr8Keccak`, as the instructions are the same |
| `low/KeccakP-1600/ARM/KeccakP-1600-inplace-32bi-armv7m-le-gcc.s`, `KeccakP-1600-inplace-32bi-armv7a-le-gcc.s`; the `armcc` files are the same programs for another assembler | `Model/KeccakArm32` | saving of registers; overlapping buffers; `KeccakP1600_StaticInitialize` (empty); numbers of rounds above 24 (an address before the table) are undefined |
| `low/KeccakP-1600/ARM/KeccakP-1600-inplace-32bi-armv6m-le-gcc.s`; the `armcc` file is the same program for another assembler | `Model/KeccakArmv6m` | as above |
| `low/KeccakP-1600/ARM/KeccakP-1600-u1-32bi-armv6m-le-gcc.s`, `KeccakP-1600-u2-32bi-armv6m-le-gcc.s`; the `armcc` files are the same programs for another assembler | `Model/KeccakArmv6mU`; the functions on bytes, which are instruction for instruction those of the file above, are `Arm6.access` | as above |
| `Standalone/CompactFIPS202/Python/CompactFIPS202.py`, `CompactFIPS202_numpy.py` | `Model/PyFIPS202` | big-endian platforms (numpy file); arguments that are not integers or byte strings (floats, `str`, lists). An exception is `none`, as is running out of fuel; numpy operations on `uint64` arrays are taken to be 64-bit operations, with shifts by 64 giving zero |
