import Verif.Model.PlSnP
import Verif.Model.KeccakHash
import Verif.Model.SP800185

/-!
# KangarooTwelve

Models `lib/high/KangarooTwelve/KangarooTwelve.c`.  `P` stands for Keccak-p[1600, 12]; `cfgs` gives, for each
security level, the parallel implementations compiled in.
-/

/-- `KangarooTwelve_Instance` (KangarooTwelve.h:30-38). -/
structure KtInst where
  queueNode : SpongeInst
  finalNode : SpongeInst
  fixedOutputLength : Nat
  blockNumber : Nat
  queueAbsorbedLen : Nat
  phase : Phase
  securityLevel : Nat
deriving Repr, DecidableEq

namespace KT

variable (P : SnP)

/-- `chunkSize` (KangarooTwelve.c:36). -/
def chunkSize : Nat := 8192

/-- `capacityInBytes` (KangarooTwelve.c:149). -/
def capBytes (sec : Nat) : Nat := 2 * sec / 8

/-- Rate, chaining value, chunk size and `suffixLeaf` (KangarooTwelve.c:36-38, 148-153). -/
def leaf (sec : Nat) : PlSnP.Leaf :=
  { rateInLanes := (1600 - 2 * sec) / 64, cvLanes := 2 * sec / 64, blockLen := chunkSize, suffix := 0x0B }

/-- `right_encode` (KangarooTwelve.c:120-132); unlike the one of SP 800-185, zero has no digit. -/
def rightEncode (value : BitVec 64) : Bytes :=
  let n := SP800185.countBytes 8 value
  SP800185.encodeBytes value n ++ [BitVec.ofNat 8 n]

/-- `TurboSHAKE_Initialize(&node, 2*securityLevel)` (KangarooTwelve.c:143, 289). -/
def nodeInit (sec : Nat) (mem : SpongeInst) : Nat × SpongeInst :=
  TurboSHAKE.init P mem (BitVec.ofNat 32 (2 * sec))

/-- `KangarooTwelve_Initialize` (KangarooTwelve.c:134-144). -/
def ktInit (mem : KtInst) (securityLevel : Int) (outputByteLen : Nat) : Nat × KtInst :=
  if securityLevel ≠ 128 ∧ securityLevel ≠ 256 then (1, mem)
  else
    let (c, sp) := nodeInit P securityLevel.toNat mem.finalNode
    (c, { queueNode := mem.queueNode, finalNode := sp, fixedOutputLength := outputByteLen, blockNumber := 0,
          queueAbsorbedLen := 0, phase := .absorbing, securityLevel := securityLevel.toNat })

/-- The number of bytes to fill the current chunk (KangarooTwelve.c:160, 178). -/
def fillLen (kt : KtInst) (inLen : Nat) : Nat :=
  if inLen < chunkSize - kt.queueAbsorbedLen then inLen else chunkSize - kt.queueAbsorbedLen

/-- First chunk, absorbed in the final node (KangarooTwelve.c:158-175): return code, instance, remaining
input. -/
def updFirst (kt : KtInst) (data : Bytes) : Option (Nat × KtInst × Bytes) := do
  let len := fillLen kt data.length
  let piece ← SnP.readBuf data len
  let (c, fin) ← TurboSHAKE.absorb P kt.finalNode piece
  if c ≠ 0 then some (1, { kt with finalNode := fin }, data)
  else
    let data := data.drop len
    let kt := { kt with finalNode := fin, queueAbsorbedLen := kt.queueAbsorbedLen + len }
    if kt.queueAbsorbedLen = chunkSize ∧ data.length ≠ 0 then do
      let kt := { kt with queueAbsorbedLen := 0, blockNumber := 1 }
      let (c, fin) ← TurboSHAKE.absorb P kt.finalNode [0x03]
      if c ≠ 0 then some (1, { kt with finalNode := fin }, data)
      else
        -- (byteIOIndex + 7) & ~7
        some (0, { kt with finalNode := { fin with byteIOIndex := (fin.byteIOIndex + 7) / 8 * 8 } }, data)
    else some (0, kt, data)

/-- Completing the chunk in the queue node (KangarooTwelve.c:176-198). -/
def updQueue (kt : KtInst) (data : Bytes) : Option (Nat × KtInst × Bytes) := do
  let len := fillLen kt data.length
  let piece ← SnP.readBuf data len
  let (c, q) ← TurboSHAKE.absorb P kt.queueNode piece
  if c ≠ 0 then some (1, { kt with queueNode := q }, data)
  else
    let data := data.drop len
    let kt := { kt with queueNode := q, queueAbsorbedLen := kt.queueAbsorbedLen + len }
    if kt.queueAbsorbedLen = chunkSize then do
      let (c, q, fin) ← PlSnP.closeLeaf P 0x0B (capBytes kt.securityLevel) kt.queueNode kt.finalNode
      some (c, { kt with queueNode := q, finalNode := fin, queueAbsorbedLen := 0,
                         blockNumber := (kt.blockNumber + 1) % 2 ^ 64 }, data)
    else some (0, kt, data)

/-- The last loop of `KangarooTwelve_Update` (KangarooTwelve.c:286-310). -/
def updRest : Nat → KtInst → Bytes → Option (Nat × KtInst)
  | 0, _, _ => none
  | fuel + 1, kt, data =>
    if 0 < data.length then do
      let len := if data.length < chunkSize then data.length else chunkSize
      let (c, q) := nodeInit P kt.securityLevel kt.queueNode
      if c ≠ 0 then some (1, { kt with queueNode := q }) else do
      let piece ← SnP.readBuf data len
      let (c, q) ← TurboSHAKE.absorb P q piece
      if c ≠ 0 then some (1, { kt with queueNode := q }) else
      if len = chunkSize then do
        let (c, q, fin) ← PlSnP.closeLeaf P 0x0B (capBytes kt.securityLevel) q kt.finalNode
        let kt := { kt with queueNode := q, finalNode := fin, blockNumber := (kt.blockNumber + 1) % 2 ^ 64 }
        if c ≠ 0 then some (1, kt) else updRest fuel kt (data.drop len)
      else updRest fuel { kt with queueNode := q, queueAbsorbedLen := len } (data.drop len)
    else some (0, kt)

/-- KangarooTwelve.c:200-312: parallel loops, then the rest. -/
def updBlocks (cfgs : Nat → List PlSnP.Cfg) (kt : KtInst) (data : Bytes) : Option (Nat × KtInst) := do
  let (c, fin, data, n) ← PlSnP.leafStages P (leaf kt.securityLevel) (cfgs kt.securityLevel) kt.finalNode data
  let kt := { kt with finalNode := fin, blockNumber := (kt.blockNumber + n) % 2 ^ 64 }
  if c ≠ 0 then some (1, kt) else updRest P (data.length + 1) kt data

/-- `KangarooTwelve_Update` (KangarooTwelve.c:146-313). -/
def ktUpdate (cfgs : Nat → List PlSnP.Cfg) (kt : KtInst) (input : Bytes) : Option (Nat × KtInst) :=
  if kt.phase ≠ .absorbing then some (1, kt)
  else do
    let (c, kt, data) ←
      if kt.blockNumber = 0 then updFirst P kt input
      else if kt.queueAbsorbedLen ≠ 0 then updQueue P kt input
      else some (0, kt, input)
    if c ≠ 0 then some (1, kt) else updBlocks P cfgs kt data

/-- `--x` on a `size_t` (KangarooTwelve.c:352). -/
def dec64 (x : Nat) : Nat := (x + (2 ^ 64 - 1)) % 2 ^ 64

/-- Closing the last leaf (KangarooTwelve.c:338-351). -/
def finLeaf (kt : KtInst) : Option (Nat × KtInst) :=
  if kt.queueAbsorbedLen ≠ 0 then do
    let (c, q, fin) ← PlSnP.closeLeaf P 0x0B (capBytes kt.securityLevel) kt.queueNode kt.finalNode
    some (c, { kt with queueNode := q, finalNode := fin, blockNumber := (kt.blockNumber + 1) % 2 ^ 64 })
  else some (0, kt)

/-- Encoding the number of chaining values (KangarooTwelve.c:352-357). -/
def finCount (kt : KtInst) : Option (Nat × KtInst) := do
  let kt := { kt with blockNumber := dec64 kt.blockNumber }
  let (c, fin) ← TurboSHAKE.absorb P kt.finalNode
    (rightEncode (BitVec.ofNat 64 kt.blockNumber) ++ [0xFF, 0xFF])
  some (c, { kt with finalNode := fin })

/-- KangarooTwelve.c:336-357. -/
def finTree (kt : KtInst) : Option (Nat × KtInst) := do
  let (c, kt) ← finLeaf P kt
  if c ≠ 0 then some (1, kt) else finCount P kt

/-- The end of `KangarooTwelve_Final` (KangarooTwelve.c:360-367). -/
def finSwitch (kt : KtInst) (padding : Byte) : Option (Nat × KtInst × Bytes) := do
  let (c, fin) ← TurboSHAKE.absorbDomainSeparationByte P kt.finalNode padding
  let kt := { kt with finalNode := fin }
  if c ≠ 0 then some (1, kt, [])
  else if kt.fixedOutputLength ≠ 0 then do
    let (c, fin, out) ← TurboSHAKE.squeeze P kt.finalNode kt.fixedOutputLength
    some (c, { kt with phase := .final, finalNode := fin }, out)
  else some (0, { kt with phase := .squeezing }, [])

/-- KangarooTwelve.c:329-367, after customisation string and its length have been absorbed. -/
def finNode (kt : KtInst) : Option (Nat × KtInst × Bytes) :=
  if kt.blockNumber = 0 then finSwitch P kt 0x07
  else do
    let (c, kt) ← finTree P kt
    if c ≠ 0 then some (1, kt, []) else finSwitch P kt 0x06

/-- `KangarooTwelve_Final` (KangarooTwelve.c:315-368). -/
def ktFinal (cfgs : Nat → List PlSnP.Cfg) (kt : KtInst) (customization : Bytes) :
    Option (Nat × KtInst × Bytes) :=
  if kt.phase ≠ .absorbing then some (1, kt, [])
  else do
    let (c, kt) ← if customization.length ≠ 0 then ktUpdate P cfgs kt customization else some (0, kt)
    if c ≠ 0 then some (1, kt, []) else do
    let (c, kt) ← ktUpdate P cfgs kt (rightEncode (BitVec.ofNat 64 customization.length))
    if c ≠ 0 then some (1, kt, []) else finNode P kt

/-- `KangarooTwelve_Squeeze` (KangarooTwelve.c:370-375). -/
def ktSqueeze (kt : KtInst) (outputLen : Nat) : Option (Nat × KtInst × Bytes) :=
  if kt.phase ≠ .squeezing then some (1, kt, [])
  else do
    let (c, fin, out) ← TurboSHAKE.squeeze P kt.finalNode outputLen
    some (c, { kt with finalNode := fin }, out)

/-- `KangarooTwelve`, the one-call function (KangarooTwelve.c:377-388); `KT128` and `KT256` (lines 392-404)
call it with 128 and 256. -/
def kangarooTwelve (cfgs : Nat → List PlSnP.Cfg) (stack : KtInst) (securityLevel : Int) (input : Bytes)
    (outLen : Nat) (customization : Bytes) : Option (Nat × Bytes) :=
  if outLen = 0 then some (1, [])
  else
    let (c, kt) := ktInit P stack securityLevel outLen
    if c ≠ 0 then some (1, []) else do
    let (c, kt) ← ktUpdate P cfgs kt input
    if c ≠ 0 then some (1, []) else do
    let (c, _, out) ← ktFinal P cfgs kt customization
    some (c, out)

end KT
