import Verif.Model.SnP
import Verif.Model.KeccakP1600
import Verif.Model.Xoodoo

/-!
# Farfalle: Kravatte and Xoofff

Models `lib/high/Kravatte/Kravatte.c` and `lib/high/Xoofff/Xoofff.c`.  The two files have the same structure; what
differs between them (width, roll functions, permutation, parallel paths compiled in, the code generating the last
blocks of output) is in the structure `Cfg`.

* A buffer passed by the caller is the list of its bytes; a pointer into it is the list of what remains.
* The five byte arrays of the instance have `width` bytes.
* The permutation with 6 rounds is a parameter of `Cfg`; the states are byte strings (`SnP`), whose contents before
  the first access are arbitrary (`Cfg.junk`: the code does not call `Initialize` unless `NEED_INITIALIZE` is defined).
* The SIMD functions `KeccakP1600times##_KravatteCompress/Expand` and `Xooffftimes##_CompressFastLoop/ExpandFastLoop`
  (and a platform-specific `Xoofff_CompressFastLoop/ExpandFastLoop`, as parallelism degree 1) are parameters of
  `Path.fast`.  The loops using the `PlSnP` interface are modelled.
* `int flags` is a structure of three booleans.
* The roll functions are those for little endian machines (there are no others: Kravatte.c:190, 241, Xoofff.c:208, 258).
-/

namespace Kravatte

open KeccakP1600 (Lane wordOfBytes bytesOfWord)

/-- `ROL64(a, offset)` (Kravatte.c:68). -/
def rol64 (a : Lane) (offset : Nat) : Lane := (a <<< offset) ||| (a >>> (64 - offset))

/-- `x[i]` of the `uint64_t` array at `x` (Kravatte.c:171-175). -/
def word (x : Bytes) (i : Nat) : Lane := wordOfBytes (x.drop (i * 8))

/-- The loop of `Kravatte_Rollc` (Kravatte.c:181-199): the words `x0..x4` at the end, as bytes, and the contents of
`encbuf`.  The C loop is a `do`/`while`: `parallellism` is never 0. -/
def rollcLoop : Nat → Lane → Lane → Lane → Lane → Lane → Bytes → Bytes × Bytes
  | 0, x0, x1, x2, x3, x4, enc =>
    (bytesOfWord x0 ++ bytesOfWord x1 ++ bytesOfWord x2 ++ bytesOfWord x3 ++ bytesOfWord x4, enc)
  | n + 1, x0, x1, x2, x3, x4, enc =>
    rollcLoop n x1 x2 x3 x4 (rol64 x0 7 ^^^ x1 ^^^ (x1 >>> 3))
      (enc ++ (bytesOfWord x0 ++ bytesOfWord x1 ++ bytesOfWord x2 ++ bytesOfWord x3 ++ bytesOfWord x4))

/-- `Kravatte_Rollc` (Kravatte.c:169-208): the new contents of `x`, and of `encbuf`. -/
def rollc (x : Bytes) (parallellism : Nat) : Bytes × Bytes :=
  let r := rollcLoop parallellism (word x 20) (word x 21) (word x 22) (word x 23) (word x 24) []
  (Bytes.setAt x 160 r.1, r.2)

/-- The loop of `Kravatte_Rolle` (Kravatte.c:227-255). -/
def rolleLoop : Nat → Lane → Lane → Lane → Lane → Lane → Lane → Lane → Lane → Lane → Lane → Bytes → Bytes × Bytes
  | 0, x0, x1, x2, x3, x4, x5, x6, x7, x8, x9, enc =>
    (bytesOfWord x0 ++ bytesOfWord x1 ++ bytesOfWord x2 ++ bytesOfWord x3 ++ bytesOfWord x4 ++
      bytesOfWord x5 ++ bytesOfWord x6 ++ bytesOfWord x7 ++ bytesOfWord x8 ++ bytesOfWord x9, enc)
  | n + 1, x0, x1, x2, x3, x4, x5, x6, x7, x8, x9, enc =>
    rolleLoop n x1 x2 x3 x4 x5 x6 x7 x8 x9 (rol64 x0 7 ^^^ rol64 x1 18 ^^^ (x2 &&& (x1 >>> 1)))
      (enc ++ (bytesOfWord x0 ++ bytesOfWord x1 ++ bytesOfWord x2 ++ bytesOfWord x3 ++ bytesOfWord x4 ++
        bytesOfWord x5 ++ bytesOfWord x6 ++ bytesOfWord x7 ++ bytesOfWord x8 ++ bytesOfWord x9))

/-- `Kravatte_Rolle` (Kravatte.c:210-269). -/
def rolle (x : Bytes) (parallellism : Nat) : Bytes × Bytes :=
  let r := rolleLoop parallellism (word x 15) (word x 16) (word x 17) (word x 18) (word x 19)
    (word x 20) (word x 21) (word x 22) (word x 23) (word x 24) []
  (Bytes.setAt x 120 r.1, r.2)

end Kravatte

namespace Xoofff

open Xoodoo (Lane wordOfBytes bytesOfWord rotl32)

/-- `a[i]` of the `uint32_t` array at `a`. -/
def word (a : Bytes) (i : Nat) : Lane := wordOfBytes (a.drop (i * 4))

/-- The bytes of the array `a` of twelve words (little endian). -/
def bytesOf (a0 a1 a2 a3 a4 a5 a6 a7 a8 a9 a10 a11 : Lane) : Bytes :=
  bytesOfWord a0 ++ bytesOfWord a1 ++ bytesOfWord a2 ++ bytesOfWord a3 ++
  bytesOfWord a4 ++ bytesOfWord a5 ++ bytesOfWord a6 ++ bytesOfWord a7 ++
  bytesOfWord a8 ++ bytesOfWord a9 ++ bytesOfWord a10 ++ bytesOfWord a11

/-- The loop of `Xoofff_Rollc` (Xoofff.c:192-231): the array `a` at the end, and the contents of `encbuf`. -/
def rollcLoop : Nat → Lane → Lane → Lane → Lane → Lane → Lane → Lane → Lane → Lane → Lane → Lane → Lane → Bytes →
    Bytes × Bytes
  | 0, a0, a1, a2, a3, a4, a5, a6, a7, a8, a9, a10, a11, enc =>
    (bytesOf a0 a1 a2 a3 a4 a5 a6 a7 a8 a9 a10 a11, enc)
  | n + 1, a0, a1, a2, a3, a4, a5, a6, a7, a8, a9, a10, a11, enc =>
    rollcLoop n a4 a5 a6 a7 a8 a9 a10 a11 a1 a2 a3 (a0 ^^^ ((a0 <<< 13) ^^^ rotl32 a4 3))
      (enc ++ bytesOf a0 a1 a2 a3 a4 a5 a6 a7 a8 a9 a10 a11)

/-- `Xoofff_Rollc` (Xoofff.c:185-233). -/
def rollc (a : Bytes) (parallellism : Nat) : Bytes × Bytes :=
  rollcLoop parallellism (word a 0) (word a 1) (word a 2) (word a 3) (word a 4) (word a 5)
    (word a 6) (word a 7) (word a 8) (word a 9) (word a 10) (word a 11) []

/-- The loop of `Xoofff_Rolle` (Xoofff.c:242-281). -/
def rolleLoop : Nat → Lane → Lane → Lane → Lane → Lane → Lane → Lane → Lane → Lane → Lane → Lane → Lane → Bytes →
    Bytes × Bytes
  | 0, a0, a1, a2, a3, a4, a5, a6, a7, a8, a9, a10, a11, enc =>
    (bytesOf a0 a1 a2 a3 a4 a5 a6 a7 a8 a9 a10 a11, enc)
  | n + 1, a0, a1, a2, a3, a4, a5, a6, a7, a8, a9, a10, a11, enc =>
    rolleLoop n a4 a5 a6 a7 a8 a9 a10 a11 a1 a2 a3 (rotl32 a0 5 ^^^ rotl32 a4 13 ^^^ (a8 &&& a4) ^^^ 7)
      (enc ++ bytesOf a0 a1 a2 a3 a4 a5 a6 a7 a8 a9 a10 a11)

/-- `Xoofff_Rolle` (Xoofff.c:235-283). -/
def rolle (a : Bytes) (parallellism : Nat) : Bytes × Bytes :=
  rolleLoop parallellism (word a 0) (word a 1) (word a 2) (word a 3) (word a 4) (word a 5)
    (word a 6) (word a 7) (word a 8) (word a 9) (word a 10) (word a 11) []

end Xoofff

namespace Farfalle

/-- One parallel path compiled in (Kravatte.c:276-296, 471-491; Xoofff.c:383-410, 573-600): the loops over the `PlSnP`
interface for parallelism degree `P`, or a SIMD function.  `compress k x message` gives the new `k` and `x` and the
number of bytes processed; `expand y kRoll length` gives the new `y` and the bytes written. -/
inductive Path
  | plSnP (P : Nat)
  | fast (P : Nat) (compress : Bytes → Bytes → Bytes → Bytes × Bytes × Nat) (expand : Bytes → Bytes → Nat → Bytes × Bytes)

/-- Which of the two files. -/
inductive Variant
  | kravatte
  | xoofff

/-- What the generic code is instantiated with. -/
structure Cfg where
  variant : Variant
  /-- `SnP_widthInBytes` (Kravatte.h:29, Xoofff.h:29) -/
  width : Nat
  /-- `KeccakP1600_Permute_Nrounds(.., 6)`, `Xoodoo_Permute_6rounds` -/
  permute : Bytes → Bytes
  /-- contents of a `state` before it is written -/
  junk : Bytes
  /-- `Kravatte_Rollc`, `Xoofff_Rollc`: new contents of the buffer, and of `encbuf` -/
  rollc : Bytes → Nat → Bytes × Bytes
  /-- `Kravatte_RollcOffset`, `Xoofff_RollOffset` -/
  rollcOffset : Nat
  /-- `Kravatte_RollcSizeInBytes`, `Xoofff_RollSizeInBytes` -/
  rollcSize : Nat
  /-- `Kravatte_Rolle`, `Xoofff_Rolle` -/
  rolle : Bytes → Nat → Bytes × Bytes
  rolleOffset : Nat
  rolleSize : Nat
  paths : List Path

/-- `Kravatte_Phases` (Kravatte.h:43-49), `Xoofff_Phases` (Xoofff.h:44-50). -/
inductive Phase
  | notInitialized | compressing | expanding | expanded
  deriving DecidableEq

/-- `Kravatte_Instance` (Kravatte.h:65-73), `Xoofff_Instance` (Xoofff.h:75-83). -/
structure Inst where
  k : Bytes
  kRoll : Bytes
  xAccu : Bytes
  yAccu : Bytes
  queue : Bytes
  queueOffset : Nat
  phase : Phase

/-- `flags`: `KRAVATTE_FLAG_INIT`, `KRAVATTE_FLAG_LAST_PART`, `KRAVATTE_FLAG_SHORT` (Kravatte.h:35-38), `Xoofff_FlagInit`,
`Xoofff_FlagLastPart`, `Xoofff_FlagXoofffie` (Xoofff.h:33-36). -/
structure Flags where
  init : Bool := false
  last : Bool := false
  short : Bool := false

variable (C : Cfg)

/-- `OverwriteLanesAll(&states, k, offset/8, 0)` (Kravatte only) followed by the loop calling `OverwriteBytes(&states, i,
encbuf + i * size, offset, size)` (Kravatte.c:126-130, 153-157; Xoofff.c:144-147, 170-173), for `n` instances from
instance `i` on.  For Xoofff the offset is 0 and the first step does nothing. -/
def loadStates (k enc : Bytes) (offset size : Nat) : Nat → Nat → Option (List Bytes)
  | 0, _ => some []
  | n + 1, i => do
    let h ← SnP.readBuf k offset
    let s ← SnP.overwriteBytes C.junk h 0
    let e ← SnP.readBuf (enc.drop (i * size)) size
    let s ← SnP.overwriteBytes s e offset
    let ss ← loadStates k enc offset size n (i + 1)
    some (s :: ss)

/-- `AddLanesAll(&states, message, widthInLanes, widthInLanes)` (Kravatte.c:131, Xoofff.c:148), from instance `i` on. -/
def addMessage (message : Bytes) : Nat → List Bytes → Option (List Bytes)
  | _, [] => some []
  | i, s :: ss => do
    let m ← SnP.readBuf (message.drop (i * C.width)) C.width
    let s ← SnP.addBytes s m 0
    let ss ← addMessage message (i + 1) ss
    some (s :: ss)

/-- `ExtractAndAddBytes(&states, i, x, x, 0, SnP_widthInBytes)` for all instances (Kravatte.c:134-138,
Xoofff.c:151-155). -/
def accumulate : Bytes → List Bytes → Option Bytes
  | x, [] => some x
  | x, s :: ss => do
    let xin ← SnP.readBuf x C.width
    let x ← SnP.extractAndAddBytes s xin 0
    accumulate x ss

/-- `ExtractAndAddBytes(&states, i, kRoll, output, 0, SnP_widthInBytes)` for all instances (Kravatte.c:159-164,
Xoofff.c:175-180): the bytes written. -/
def emit (kRoll : Bytes) : List Bytes → Option Bytes
  | [] => some []
  | s :: ss => do
    let kin ← SnP.readBuf kRoll C.width
    let o ← SnP.extractAndAddBytes s kin 0
    let os ← emit kRoll ss
    some (o ++ os)

/-- `ParallelCompressLoopPlSnP` (Kravatte.c:117-142, Xoofff.c:135-159): `k`, `x`, `message`, `messageByteLen` at the end. -/
def compressPl (P : Nat) : Nat → Bytes → Bytes → Bytes → Nat → Option (Bytes × Bytes × Bytes × Nat)
  | 0, _, _, _, _ => none
  | fuel + 1, k, x, message, messageByteLen =>
    if messageByteLen ≥ P * C.width then do
      let r := C.rollc k P
      let ss ← loadStates C r.1 r.2 C.rollcOffset C.rollcSize P 0
      let ss ← addMessage C message 0 ss
      let x ← accumulate C x (ss.map C.permute)
      compressPl P fuel r.1 x (message.drop (P * C.width)) (messageByteLen - P * C.width)
    else some (k, x, message, messageByteLen)

/-- `ParallelCompressLoopFast` (Kravatte.c:103-108, Xoofff.c:121-126). -/
def compressFast (P : Nat) (F : Bytes → Bytes → Bytes → Bytes × Bytes × Nat) (k x message : Bytes)
    (messageByteLen : Nat) : Option (Bytes × Bytes × Bytes × Nat) :=
  if messageByteLen ≥ P * C.width then do
    let m ← SnP.readBuf message messageByteLen
    let r := F k x m
    some (r.1, r.2.1, message.drop r.2.2, messageByteLen - r.2.2)
  else some (k, x, message, messageByteLen)

/-- The parallel paths one after the other (Kravatte.c:276-296, Xoofff.c:383-410). -/
def compressPaths : List Path → Bytes → Bytes → Bytes → Nat → Option (Bytes × Bytes × Bytes × Nat)
  | [], k, x, message, messageByteLen => some (k, x, message, messageByteLen)
  | .plSnP P :: ps, k, x, message, messageByteLen => do
    let (k, x, message, messageByteLen) ← compressPl C P (messageByteLen + 1) k x message messageByteLen
    compressPaths ps k x message messageByteLen
  | .fast P F _ :: ps, k, x, message, messageByteLen => do
    let (k, x, message, messageByteLen) ← compressFast C P F k x message messageByteLen
    compressPaths ps k x message messageByteLen

/-- The loop over single blocks (Kravatte.c:298-314; `Xoofff_CompressFastLoop`, Xoofff.c:325-350, called at 412-416). -/
def compressSingle : Nat → Bytes → Bytes → Bytes → Nat → Option (Bytes × Bytes × Bytes × Nat)
  | 0, _, _, _, _ => none
  | fuel + 1, k, x, message, messageByteLen =>
    if messageByteLen ≥ C.width then do
      let kin ← SnP.readBuf k C.width
      let s ← SnP.overwriteBytes C.junk kin 0
      let k := (C.rollc k 1).1
      let m ← SnP.readBuf message C.width
      let s ← SnP.addBytes s m 0
      let xin ← SnP.readBuf x C.width
      let x ← SnP.extractAndAddBytes (C.permute s) xin 0
      compressSingle fuel k x (message.drop C.width) (messageByteLen - C.width)
    else some (k, x, message, messageByteLen)

/-- The byte added after the last whole byte (Kravatte.c:330-333, Xoofff.c:432-435): `message` is what remains from the
pointer on, `bits` is `*messageBitLen % 8`. -/
def padByte (message : Bytes) (bits : Nat) : Option Byte :=
  if bits ≠ 0 then do
    let b ← message.head?
    some (b ||| BitVec.ofNat 8 (2 ^ bits))
  else some 1

/-- The processing of the last, padded block (Kravatte.c:316-339, Xoofff.c:418-441): `k`, `x` and `message` at the end. -/
def compressLast (k x message : Bytes) (messageByteLen bits : Nat) : Option (Bytes × Bytes × Bytes) := do
  let kin ← SnP.readBuf k C.width
  let s ← SnP.overwriteBytes C.junk kin 0
  let k := (C.rollc k 1).1
  let m ← SnP.readBuf message messageByteLen
  let s ← SnP.addBytes s m 0
  let message := message.drop messageByteLen
  let b ← padByte message bits
  let s ← SnP.addByte s b messageByteLen
  let xin ← SnP.readBuf x C.width
  let x ← SnP.extractAndAddBytes (C.permute s) xin 0
  some ((C.rollc k 1).1, x, if bits ≠ 0 then message.drop 1 else message)

/-- `Kra_Compress` (Kravatte.c:271-341), `Xoodoo_CompressBlocks` (Xoofff.c:378-443): `k`, `x`, the pointer returned and
`*messageBitLen` at the end. -/
def compressBlocks (k x message : Bytes) (messageBitLen : Nat) (last : Bool) : Option (Bytes × Bytes × Bytes × Nat) := do
  let (k, x, message, messageByteLen) ← compressPaths C C.paths k x message (messageBitLen / 8)
  let (k, x, message, messageByteLen) ← compressSingle C (messageByteLen + 1) k x message messageByteLen
  if last then do
    let (k, x, message) ← compressLast C k x message messageByteLen (messageBitLen % (C.width * 8) % 8)
    some (k, x, message, 0)
  else some (k, x, message, messageBitLen % (C.width * 8))

/-- `lastByte` in the mask derivation (Kravatte.c:355-361, Xoofff.c:457-463). -/
def keyLastByte (key : Bytes) (keyBitLen : Nat) : Option Byte :=
  if keyBitLen % 8 ≠ 0 then do
    let b ← key[keyBitLen / 8]?
    some ((b &&& BitVec.ofNat 8 (2 ^ (keyBitLen % 8) - 1)) ||| BitVec.ofNat 8 (2 ^ (keyBitLen % 8)))
  else some 1

/-- `Kravatte_MaskDerivation` (Kravatte.c:343-374), `Xoofff_MaskDerivation` (Xoofff.c:445-476). -/
def maskDerivation (kv : Inst) (key : Bytes) (keyBitLen : Nat) : Option (Nat × Inst) :=
  if keyBitLen ≥ C.width * 8 then some (1, kv)
  else do
    let d ← SnP.readBuf key (keyBitLen / 8)
    let k := Bytes.setAt (Bytes.zeros C.width) 0 d
    let b ← keyLastByte key keyBitLen
    let k := Bytes.setAt k (keyBitLen / 8) [b]
    let s ← SnP.overwriteBytes C.junk k 0
    let k ← SnP.extractBytes (C.permute s) 0 C.width
    some (0, { kv with k := k, kRoll := k, xAccu := Bytes.zeros C.width, phase := .compressing, queueOffset := 0 })

/-- The end of `Kra`/`Xoofff_Compress` (Kravatte.c:408-419, Xoofff.c:510-521). -/
def compressRest (kv : Inst) (input : Bytes) (inputBitLen : Nat) (last : Bool) : Option (Nat × Inst) :=
  if inputBitLen ≥ C.width * 8 ∨ last = true then do
    let (k, x, input, inputBitLen) ← compressBlocks C kv.kRoll kv.xAccu input inputBitLen last
    let kv := { kv with kRoll := k, xAccu := x }
    if inputBitLen ≠ 0 then do
      let d ← SnP.readBuf input (inputBitLen / 8)
      some (0, { kv with queue := Bytes.setAt kv.queue 0 d, queueOffset := inputBitLen })
    else some (0, kv)
  else if inputBitLen ≠ 0 then do
    let d ← SnP.readBuf input (inputBitLen / 8)
    some (0, { kv with queue := Bytes.setAt kv.queue 0 d, queueOffset := inputBitLen })
  else some (0, kv)

/-- `Kra`/`Xoofff_Compress` when data are queued (Kravatte.c:391-407, Xoofff.c:493-509) and the rest of the function. -/
def compressQueued (kv : Inst) (input : Bytes) (inputBitLen : Nat) (last : Bool) : Option (Nat × Inst) := do
  let bitlen := min inputBitLen (C.width * 8 - kv.queueOffset)
  let bytelen := (bitlen + 7) / 8
  let d ← SnP.readBuf input bytelen
  let kv := { kv with queue := Bytes.setAt kv.queue (kv.queueOffset / 8) d, queueOffset := kv.queueOffset + bitlen }
  if kv.queueOffset = C.width * 8 then do
    let (k, x, _, _) ← compressBlocks C kv.kRoll kv.xAccu kv.queue kv.queueOffset false
    compressRest C { kv with kRoll := k, xAccu := x, queueOffset := 0 } (input.drop bytelen) (inputBitLen - bitlen) last
  else if last then do
    let (k, x, _, n) ← compressBlocks C kv.kRoll kv.xAccu kv.queue kv.queueOffset true
    some (0, { kv with kRoll := k, xAccu := x, queueOffset := n })
  else compressRest C kv (input.drop bytelen) (inputBitLen - bitlen) last

/-- The effect of `KRAVATTE_FLAG_INIT`/`Xoofff_FlagInit` (Kravatte.c:382-386, Xoofff.c:484-488). -/
def resetAccu (kv : Inst) (init : Bool) : Inst :=
  if init then { kv with kRoll := kv.k, xAccu := Bytes.zeros C.width, queueOffset := 0 } else kv

/-- `Kra` (Kravatte.c:376-420), `Xoofff_Compress` (Xoofff.c:478-522). -/
def compress (kv : Inst) (input : Bytes) (inputBitLen : Nat) (flags : Flags) : Option (Nat × Inst) :=
  if flags.last = false ∧ inputBitLen % 8 ≠ 0 then some (1, kv)
  else
    let kv := resetAccu C kv flags.init
    if kv.phase ≠ .compressing then
      compressRest C { kv with phase := .compressing, queueOffset := 0 } input inputBitLen flags.last
    else if kv.queueOffset ≠ 0 then compressQueued C kv input inputBitLen flags.last
    else compressRest C kv input inputBitLen flags.last

/-- `*(output - 1) &= (1 << bits) - 1` (Kravatte.c:462-464, 516-518; Xoofff.c:564-566, 627-629): `out` is what was
written before `output`; if nothing was written this is an access out of bounds. -/
def maskLast (out : Bytes) (bits : Nat) : Option Bytes :=
  if bits % 8 ≠ 0 then
    match out.getLast? with
    | some b => some (out.dropLast ++ [b &&& BitVec.ofNat 8 (2 ^ (bits % 8) - 1)])
    | none => none
  else some out

/-- `ParallelExpandLoopPlSnP` (Kravatte.c:144-167, Xoofff.c:161-183): `yAccu`, the bytes written and `outputByteLen` at the
end. -/
def expandPl (P : Nat) (kRoll : Bytes) : Nat → Bytes → Nat → Option (Bytes × Bytes × Nat)
  | 0, _, _ => none
  | fuel + 1, y, outputByteLen =>
    if outputByteLen ≥ P * C.width then do
      let r := C.rolle y P
      let ss ← loadStates C r.1 r.2 C.rolleOffset C.rolleSize P 0
      let o ← emit C kRoll (ss.map C.permute)
      let (y, os, n) ← expandPl P kRoll fuel r.1 (outputByteLen - P * C.width)
      some (y, o ++ os, n)
    else some (y, [], outputByteLen)

/-- `ParallelExpandLoopFast` (Kravatte.c:110-115, Xoofff.c:128-133). -/
def expandFast (P : Nat) (F : Bytes → Bytes → Nat → Bytes × Bytes) (kRoll y : Bytes) (outputByteLen : Nat) :
    Option (Bytes × Bytes × Nat) :=
  if outputByteLen ≥ P * C.width then
    let r := F y kRoll outputByteLen
    some (r.1, r.2, outputByteLen - r.2.length)
  else some (y, [], outputByteLen)

/-- The parallel paths one after the other (Kravatte.c:471-491, Xoofff.c:573-600). -/
def expandPaths (kRoll : Bytes) : List Path → Bytes → Nat → Option (Bytes × Bytes × Nat)
  | [], y, outputByteLen => some (y, [], outputByteLen)
  | .plSnP P :: ps, y, outputByteLen => do
    let (y, o, n) ← expandPl C P kRoll (outputByteLen + 1) y outputByteLen
    let (y, os, n) ← expandPaths kRoll ps y n
    some (y, o ++ os, n)
  | .fast P _ F :: ps, y, outputByteLen => do
    let (y, o, n) ← expandFast C P F kRoll y outputByteLen
    let (y, os, n) ← expandPaths kRoll ps y n
    some (y, o ++ os, n)

/-- One block of the loop of `Vatte` (Kravatte.c:499-506), of `Xoofff_ExpandFastLoop` (Xoofff.c:364-370) or of the last
incomplete block (Xoofff.c:614-619): the state, `yAccu` and the `len` bytes written. -/
def expandBlock (kRoll y : Bytes) (len : Nat) : Option (Bytes × Bytes × Bytes) := do
  let yin ← SnP.readBuf y C.width
  let s ← SnP.overwriteBytes C.junk yin 0
  let s := C.permute s
  let kin ← SnP.readBuf kRoll len
  let o ← SnP.extractAndAddBytes s kin 0
  some (s, (C.rolle y 1).1, o)

/-- The `do`/`while` loop of `Vatte` (Kravatte.c:498-507): the state, `yAccu`, the bytes written and `len` at the end. -/
def expandDo (kRoll : Bytes) : Nat → Bytes → Nat → Option (Bytes × Bytes × Bytes × Nat)
  | 0, _, _ => none
  | fuel + 1, y, outputByteLen => do
    let len := min outputByteLen C.width
    let (s, y, o) ← expandBlock C kRoll y len
    if outputByteLen - len ≠ 0 then do
      let (s, y, os, len) ← expandDo kRoll fuel y (outputByteLen - len)
      some (s, y, o ++ os, len)
    else some (s, y, o, len)

/-- `ExtractAndAddBytes(&state, kRoll + offset, queue + offset, offset, SnP_widthInBytes - offset)` and the assignment of
`queueOffset` (Kravatte.c:508-513, Xoofff.c:620-624). -/
def stock (kv : Inst) (s : Bytes) (offset : Nat) : Option Inst := do
  let kin ← SnP.readBuf (kv.kRoll.drop offset) (C.width - offset)
  let o ← SnP.extractAndAddBytes s kin offset
  some { kv with queue := Bytes.setAt kv.queue offset o, queueOffset := offset * 8 }

/-- The generation of the last blocks by `Vatte` (Kravatte.c:492-514). -/
def expandTailKravatte (kv : Inst) (outputByteLen : Nat) (last : Bool) : Option (Inst × Bytes) :=
  if outputByteLen ≠ 0 then do
    let (s, y, o, len) ← expandDo C kv.kRoll (outputByteLen + 1) kv.yAccu outputByteLen
    let kv := { kv with yAccu := y }
    if last = false ∧ len ≠ C.width then do
      let kv ← stock C kv s len
      some (kv, o)
    else some (kv, o)
  else some (kv, [])

/-- The loop of `Xoofff_ExpandFastLoop` (Xoofff.c:352-374, called at 601-605): `yAccu`, the bytes written and
`outputByteLen` at the end. -/
def expandWhole (kRoll : Bytes) : Nat → Bytes → Nat → Option (Bytes × Bytes × Nat)
  | 0, _, _ => none
  | fuel + 1, y, outputByteLen =>
    if outputByteLen ≥ C.width then do
      let (_, y, o) ← expandBlock C kRoll y C.width
      let (y, os, n) ← expandWhole kRoll fuel y (outputByteLen - C.width)
      some (y, o ++ os, n)
    else some (y, [], outputByteLen)

/-- The generation of the last blocks by `Xoofff_Expand` (Xoofff.c:601-625). -/
def expandTailXoofff (kv : Inst) (outputByteLen : Nat) (last : Bool) : Option (Inst × Bytes) := do
  let (y, o, n) ← expandWhole C kv.kRoll (outputByteLen + 1) kv.yAccu outputByteLen
  let kv := { kv with yAccu := y }
  if n ≠ 0 then do
    let (s, y, o') ← expandBlock C kv.kRoll kv.yAccu n
    let kv := { kv with yAccu := y }
    if last = false then do
      let kv ← stock C kv s n
      some (kv, o ++ o')
    else some (kv, o ++ o')
  else some (kv, o)

/-- The generation of the last blocks, in either file. -/
def expandTail (kv : Inst) (outputByteLen : Nat) (last : Bool) : Option (Inst × Bytes) :=
  match C.variant with
  | .kravatte => expandTailKravatte C kv outputByteLen last
  | .xoofff => expandTailXoofff C kv outputByteLen last

/-- The second half of `Vatte` (Kravatte.c:470-523) and `Xoofff_Expand` (Xoofff.c:572-634); `out` is what was taken from the
queue. -/
def expandRest (kv : Inst) (out : Bytes) (outputBitLen : Nat) (last : Bool) : Option (Nat × Inst × Bytes) := do
  let (y, o, n) ← expandPaths C kv.kRoll C.paths kv.yAccu ((outputBitLen + 7) % 2 ^ 64 / 8)
  let (kv, o') ← expandTail C { kv with yAccu := y } n last
  let out := out ++ o ++ o'
  if last then do
    let out ← maskLast out outputBitLen
    some (0, { kv with phase := .expanded }, out)
  else some (0, kv, out)

/-- Serving from the queue (Kravatte.c:451-468, Xoofff.c:553-570) and the rest of the function. -/
def expandQueued (kv : Inst) (outputBitLen : Nat) (last : Bool) : Option (Nat × Inst × Bytes) := do
  let bitlen := min outputBitLen (C.width * 8 - kv.queueOffset)
  let bytelen := (bitlen + 7) / 8
  let o ← SnP.readBuf (kv.queue.drop (kv.queueOffset / 8)) bytelen
  let kv := { kv with queueOffset := if kv.queueOffset + bitlen = C.width * 8 then 0 else kv.queueOffset + bitlen }
  if last = true ∧ outputBitLen - bitlen = 0 then do
    let o ← maskLast o bitlen
    some (0, { kv with phase := .expanded }, o)
  else expandRest C kv o (outputBitLen - bitlen) last

/-- The start of an expansion (Kravatte.c:433-445, Xoofff.c:535-547). -/
def startExpand (kv : Inst) (short : Bool) : Option Inst :=
  if short then do
    let x ← SnP.readBuf kv.xAccu C.width
    some { kv with yAccu := x, phase := .expanding }
  else do
    let x ← SnP.readBuf kv.xAccu C.width
    let s ← SnP.overwriteBytes C.junk x 0
    let y ← SnP.extractBytes (C.permute s) 0 C.width
    some { kv with yAccu := y, phase := .expanding }

/-- `Vatte` (Kravatte.c:422-524), `Xoofff_Expand` (Xoofff.c:524-635): the return code, the instance and the bytes written. -/
def expand (kv : Inst) (outputBitLen : Nat) (flags : Flags) : Option (Nat × Inst × Bytes) :=
  if flags.last = false ∧ outputBitLen % 8 ≠ 0 then some (1, kv, [])
  else if kv.phase = .compressing then
    if kv.queueOffset ≠ 0 then some (1, kv, [])
    else do
      let kv ← startExpand C kv flags.short
      expandRest C kv [] outputBitLen flags.last
  else if kv.phase ≠ .expanding then some (1, kv, [])
  else if kv.queueOffset ≠ 0 then expandQueued C kv outputBitLen flags.last
  else expandRest C kv [] outputBitLen flags.last

/-- `Kravatte` (Kravatte.c:526-533), `Xoofff` (Xoofff.c:637-644). -/
def full (kv : Inst) (input : Bytes) (inputBitLen outputBitLen : Nat) (flags : Flags) : Option (Nat × Inst × Bytes) := do
  let flags := { flags with last := true }
  let (c, kv) ← compress C kv input inputBitLen flags
  if c ≠ 0 then some (1, kv, [])
  else expand C kv outputBitLen flags

end Farfalle

/-- Kravatte: `Farfalle.Cfg` for `Kravatte.c` (widths and offsets in Kravatte.h:29-33), for a given implementation of the
6-round permutation and the parallel paths compiled in. -/
def Kravatte.cfg (permute : Bytes → Bytes) (junk : Bytes) (paths : List Farfalle.Path) : Farfalle.Cfg where
  variant := .kravatte
  width := 200
  permute := permute
  junk := junk
  rollc := Kravatte.rollc
  rollcOffset := 160
  rollcSize := 40
  rolle := Kravatte.rolle
  rolleOffset := 120
  rolleSize := 80
  paths := paths

/-- Xoofff: `Farfalle.Cfg` for `Xoofff.c` (Xoofff.h:29-31). -/
def Xoofff.cfg (permute : Bytes → Bytes) (junk : Bytes) (paths : List Farfalle.Path) : Farfalle.Cfg where
  variant := .xoofff
  width := 48
  permute := permute
  junk := junk
  rollc := Xoofff.rollc
  rollcOffset := 0
  rollcSize := 48
  rolle := Xoofff.rolle
  rolleOffset := 0
  rolleSize := 48
  paths := paths

/-! ## What is assumed about the parameters

The roll functions, the SIMD functions and the permutation are parameters of `Cfg`; `Valid` is what the properties assume
about them.  For the roll functions of Kravatte and Xoofff it is proved (`Kravatte.valid`, `Xoofff.valid`). -/

namespace Farfalle

variable (C : Cfg)

/-- Rolling the input mask once. -/
def rc (k : Bytes) : Bytes := (C.rollc k 1).1

/-- Rolling the output accumulator once. -/
def re (y : Bytes) : Bytes := (C.rolle y 1).1

/-- Contract of the compression functions: absorb `n` blocks of `d` one after the other in the pair (mask, accumulator). -/
def eat : Nat → Bytes × Bytes → Bytes → Bytes × Bytes
  | 0, st, _ => st
  | n + 1, st, d =>
    eat n (rc C st.1, Bytes.xor st.2 (C.permute (Bytes.xor st.1 (d.take C.width)))) (d.drop C.width)

/-- Contract of the expansion functions: `n` blocks of output. -/
def gen (kRoll : Bytes) : Nat → Bytes → Bytes
  | 0, _ => []
  | n + 1, y => Bytes.xor kRoll (C.permute y) ++ gen kRoll n (re C y)

/-- A roll function of the code, on a buffer of `w` bytes of which it modifies the last `size`: for `n` iterations it leaves
the `n`-fold roll in the buffer and the rolled parts of the successive values in `encbuf`. -/
structure RollOk (f : Bytes → Nat → Bytes × Bytes) (w off size : Nat) : Prop where
  off_size : off + size = w
  len : ∀ x : Bytes, x.length = w → (f x 1).1.length = w
  fixed : ∀ x : Bytes, x.length = w → (f x 1).1.take off = x.take off
  iter : ∀ (x : Bytes) (n : Nat), x.length = w → (f x n).1 = Nat.repeat (fun x => (f x 1).1) n x
  enc_len : ∀ (x : Bytes) (n : Nat), x.length = w → (f x n).2.length = n * size
  enc : ∀ (x : Bytes) (n i : Nat), x.length = w → i < n →
    Bytes.slice (f x n).2 (i * size) size = (Nat.repeat (fun x => (f x 1).1) i x).drop off

/-- A parallel path: the degree is not 0, and SIMD functions process as many groups of `P` blocks as there are. -/
def PathOk : Path → Prop
  | .plSnP P => 0 < P
  | .fast P F G => 0 < P ∧
    (∀ k x m : Bytes, k.length = C.width → x.length = C.width → P * C.width ≤ m.length →
      F k x m = ((eat C (m.length / (P * C.width) * P) (k, x) m).1, (eat C (m.length / (P * C.width) * P) (k, x) m).2,
        m.length / (P * C.width) * P * C.width)) ∧
    (∀ (y kRoll : Bytes) (len : Nat), y.length = C.width → kRoll.length = C.width → P * C.width ≤ len →
      G y kRoll len = (Nat.repeat (re C) (len / (P * C.width) * P) y, gen C kRoll (len / (P * C.width) * P) y))

/-- The assumptions on the parameters. -/
structure Valid : Prop where
  width_pos : 0 < C.width
  permute_len : ∀ s : Bytes, s.length = C.width → (C.permute s).length = C.width
  junk_len : C.junk.length = C.width
  rollc_ok : RollOk C.rollc C.width C.rollcOffset C.rollcSize
  rolle_ok : RollOk C.rolle C.width C.rolleOffset C.rolleSize
  paths_ok : ∀ p ∈ C.paths, PathOk C p

end Farfalle
