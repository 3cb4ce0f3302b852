import Verif.Model.Sponge

/-!
# Parallel states (PlSnP) and the processing of several leaves at a time

Models the interface of `doc/PlSnP-documentation.h` / `doc/Low level model/src/PlSnP.cpp` as it is
implemented by the SIMD files (`KeccakP-1600-times2/SIMD128/KeccakP-1600-times2-SIMD128.c`,
`KeccakP-1600-times4/AVX2/KeccakP-1600-times4-SIMD256.c`), and the macros `ParallelSpongeFastLoop`,
`ParallelSpongeLoop` (SP800-185.inc:239-291, KangarooTwelve.c:42-96) and `ProcessLeavesKT128/256`
(KangarooTwelve.c:98-118).

The `D` parallel states are a list of `D` byte-level states: the interleaving of the lanes in SIMD registers
is not modelled.  Offsets into the data are computed by the C code in `unsigned int`, and so they are
here: they wrap around at 2^32.
-/

namespace PlSnP

variable (P : SnP)

/-- The position of the data of instance `i`: `data + laneOffset*i*SnP_laneLengthInBytes`, in `unsigned int`
(times2-SIMD128.c:121, times4-SIMD256.c:131-133). -/
def lanePtr (laneOffset i : Nat) : Nat := laneOffset * i * 8 % 2 ^ 32

/-- `PlSnP_AddLanesAll` (PlSnP.cpp:81-90, times2-SIMD128.c:116-159, times4-SIMD256.c:126-169), for the
instances from `i` on. -/
def addLanesAll (data : Bytes) (laneCount laneOffset : Nat) : Nat → List Bytes → Option (List Bytes)
  | _, [] => some []
  | i, s :: ss => do
    let piece ← SnP.readBuf (data.drop (lanePtr laneOffset i)) (laneCount * 8)
    let s ← SnP.addBytes s piece 0
    let ss ← addLanesAll data laneCount laneOffset (i + 1) ss
    some (s :: ss)

/-- `PlSnP_PermuteAll` (PlSnP.cpp:130-134). -/
def permuteAll (ss : List Bytes) : List Bytes := ss.map P.permute

/-- `PlSnP_ExtractLanesAll(.., laneCount, laneCount)` (PlSnP.cpp:160-169): the bytes written. -/
def extractLanesAll (laneCount : Nat) : List Bytes → Option Bytes
  | [] => some []
  | s :: ss => do
    let x ← SnP.extractBytes s 0 (laneCount * 8)
    let xs ← extractLanesAll laneCount ss
    some (x ++ xs)

/-- `PlSnP_FastLoop_Absorb` (PlSnP-documentation.h:225-243, times2-SIMD128.c:864-957,
times4-SIMD256.c:857-957): `data` is what remains from the `data` pointer on, `len` the variable
`dataByteLen`; returns the states and the total offset. -/
def fastLoopAbsorb (laneCount laneOffsetParallel laneOffsetSerial : Nat) :
    Nat → List Bytes → Bytes → Nat → Option (List Bytes × Nat)
  | 0, _, _, _ => none
  | fuel + 1, ss, data, len =>
    if len ≥ (laneOffsetParallel * (ss.length - 1) + laneCount) * 8 % 2 ^ 32 then do
      let ss ← addLanesAll data laneCount laneOffsetParallel 0 ss
      let (ss, n) ← fastLoopAbsorb laneCount laneOffsetParallel laneOffsetSerial fuel (permuteAll P ss)
        (data.drop (laneOffsetSerial * 8)) ((len + 2 ^ 64 - laneOffsetSerial * 8) % 2 ^ 64)
      some (ss, n + laneOffsetSerial * 8)
    else some (ss, 0)

/-- The inner loop of `ParallelSpongeLoop` (SP800-185.inc:276-281, KangarooTwelve.c:80-85): returns the
states and the number of bytes by which `localInput` has advanced. -/
def absorbLoop (rateInLanes laneOffset : Nat) : Nat → List Bytes → Bytes → Nat → Option (List Bytes × Nat)
  | 0, _, _, _ => none
  | fuel + 1, ss, localInput, localBlockLen =>
    if localBlockLen ≥ rateInLanes * 8 then do
      let ss ← addLanesAll localInput rateInLanes laneOffset 0 ss
      let (ss, n) ← absorbLoop rateInLanes laneOffset fuel (permuteAll P ss)
        (localInput.drop (rateInLanes * 8)) (localBlockLen - rateInLanes * 8)
      some (ss, n + rateInLanes * 8)
    else some (ss, 0)

/-- The loop `for ( i = 0; i < Parallellism; ++i, localInput += blockLen )` (SP800-185.inc:254-258, 282-286,
KangarooTwelve.c:57-61, 86-90) from instance `i` on; `len` is `localBlockLen` after its conversion to
`unsigned int`. -/
def padLeaves (rateInBytes blockLen : Nat) (suffix : Byte) (len : Nat) (localInput : Bytes) :
    Nat → List Bytes → Option (List Bytes)
  | _, [] => some []
  | i, s :: ss => do
    let piece ← SnP.readBuf (localInput.drop (i * blockLen)) len
    let s ← SnP.addBytes s piece 0
    let s ← SnP.addByte s suffix len
    let s ← SnP.addByte s 0x80 (rateInBytes - 1)
    let ss ← padLeaves rateInBytes blockLen suffix len localInput (i + 1) ss
    some (s :: ss)

/-- How an implementation of parallelism degree `D` processes leaves: `ParallelSpongeLoop`,
`ParallelSpongeFastLoop`, or (KangarooTwelve only) the function
`KeccakP1600times##_KT128ProcessLeaves`/`KT256ProcessLeaves`, which exists only in SIMD code and is a
parameter here. -/
inductive Kind
  | loop
  | fastLoop
  | processLeaves (F : Bytes → Bytes)

/-- One parallel implementation compiled in. -/
structure Cfg where
  degree : Nat
  kind : Kind

/-- The parameters of the leaves: rate and chaining value size in lanes, block length in bytes, suffix. -/
structure Leaf where
  rateInLanes : Nat
  cvLanes : Nat
  blockLen : Nat
  suffix : Byte

/-- The part of the macros after the whole blocks have been absorbed: last bytes and padding, permutation,
extraction of the chaining values. -/
def finishLeaves (L : Leaf) (ss : List Bytes) (offset : Nat) (input : Bytes) : Option Bytes := do
  let localBlockLen := (L.blockLen + 2 ^ 64 - offset) % 2 ^ 64 % 2 ^ 32
  let ss ← padLeaves (L.rateInLanes * 8) L.blockLen L.suffix localBlockLen (input.drop offset) 0 ss
  extractLanesAll L.cvLanes (permuteAll P ss)

/-- The body of the `while` loop of the three macros: the array `intermediate` computed from the data at
`input`. -/
def leafBatch (L : Leaf) (cfg : Cfg) (input : Bytes) : Option Bytes :=
  let states := List.replicate cfg.degree P.init
  let laneOffset := L.blockLen / 8 % 2 ^ 32
  match cfg.kind with
  | .fastLoop => do
    let (ss, n) ← fastLoopAbsorb P L.rateInLanes laneOffset L.rateInLanes (input.length + 1) states input
      (cfg.degree * L.blockLen % 2 ^ 64)
    finishLeaves P L ss n input
  | .loop => do
    let (ss, n) ← absorbLoop P L.rateInLanes laneOffset (L.blockLen + 1) states input L.blockLen
    finishLeaves P L ss n input
  | .processLeaves F => do
    let x ← SnP.readBuf input (cfg.degree * L.blockLen)
    some (F x)

/-- One of the macros: `while ( inputByteLen >= Parallellism * blockLen ) ...`.  Returns the return code, the
final node, the remaining input and the number of leaves processed. -/
def leafLoop (L : Leaf) (cfg : Cfg) : Nat → SpongeInst → Bytes → Option (Nat × SpongeInst × Bytes × Nat)
  | 0, _, _ => none
  | fuel + 1, final, input =>
    if input.length ≥ cfg.degree * L.blockLen % 2 ^ 64 then do
      let cvs ← leafBatch P L cfg input
      let rest := input.drop (cfg.degree * L.blockLen % 2 ^ 64)
      let (c, final) ← Sponge.absorb P final cvs
      if c ≠ 0 then some (1, final, rest, cfg.degree)
      else do
        let (c, final, rest, n) ← leafLoop L cfg fuel final rest
        some (c, final, rest, n + cfg.degree)
    else some (0, final, input, 0)

/-- The macros for the parallelism degrees compiled in, one after the other (SP800-185.inc:370-392,
KangarooTwelve.c:200-284). -/
def leafStages (L : Leaf) : List Cfg → SpongeInst → Bytes → Option (Nat × SpongeInst × Bytes × Nat)
  | [], final, input => some (0, final, input, 0)
  | cfg :: cfgs, final, input => do
    let (c, final, input, n) ← leafLoop P L cfg (input.length + 1) final input
    if c ≠ 0 then some (c, final, input, n)
    else do
      let (c, final, input, n') ← leafStages L cfgs final input
      some (c, final, input, n + n')

/-- Closing a leaf in the queue node: absorb the suffix, squeeze the chaining value and absorb it in the
final node (SP800-185.inc:360-366, 404-410, 427-433; KangarooTwelve.c:191-196, 301-306, 345-350).
Returns the return code, the queue node and the final node. -/
def closeLeaf (suffix : Byte) (cvBytes : Nat) (queue final : SpongeInst) :
    Option (Nat × SpongeInst × SpongeInst) := do
  let (c, queue) ← Sponge.absorbLastFewBits P queue suffix
  if c ≠ 0 then some (1, queue, final) else do
  let (c, queue, cv) ← Sponge.squeeze P queue cvBytes
  if c ≠ 0 then some (1, queue, final) else do
  let (c, final) ← Sponge.absorb P final cv
  if c ≠ 0 then some (1, queue, final) else
  some (0, queue, final)

end PlSnP
