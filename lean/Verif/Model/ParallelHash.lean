import Verif.Model.PlSnP
import Verif.Model.SP800185

/-!
# ParallelHash

Models the ParallelHash part of `lib/high/Keccak/SP800-185/SP800-185.inc` (lines 232-479).  `P` stands for
Keccak-f[1600]; `cfgs` lists the parallel implementations compiled in (any list is allowed).
-/

/-- `ParallelHash_Instance` (SP800-185.h:316-324). -/
structure PhInst where
  queueNode : SpongeInst
  finalNode : SpongeInst
  fixedOutputLength : Nat
  blockLen : Nat
  queueAbsorbedLen : Nat
  totalInputSize : Nat
  phase : Phase
deriving Repr, DecidableEq

namespace ParallelHash
open SP800185

variable (P : SnP)

/-- `capacityInBytes` (SP800-185.inc:21). -/
def capBytes (sec : Nat) : Nat := 2 * sec / 8

/-- The leaves of ParallelHash: `rateInLanes`, `capacityInLanes`, `blockLen`, `suffix` 0x1F
(SP800-185.c:85, SP800-185.inc:20-25). -/
def leaf (sec B : Nat) : PlSnP.Leaf :=
  { rateInLanes := rateBytes sec / 8, cvLanes := capBytes sec / 8, blockLen := B, suffix := 0x1F }

/-- The check that `blockByteLen` is a power of two (SP800-185.inc:301-303): does the loop
`for (t = blockByteLen; t > 1; t >>= 1) if ((t & 1) && (t != 1)) return 1;` run to its end? -/
def pow2Loop : Nat → Nat → Option Bool
  | 0, _ => none
  | fuel + 1, t =>
    if t > 1 then
      if t % 2 = 1 ∧ t ≠ 1 then some false else pow2Loop fuel (t / 2)
    else some true

/-- The bytes of the literal `"\x01\x60" "ParallelHash"` (SP800-185.inc:317). -/
def nameBytes : Bytes :=
  [0x01, 0x60, 0x50, 0x61, 0x72, 0x61, 0x6C, 0x6C, 0x65, 0x6C, 0x48, 0x61, 0x73, 0x68]

/-- The zero padding and `left_encode(B)` (SP800-185.inc:326-337). -/
def initTail (sec B : Nat) (sp : SpongeInst) : Option (Nat × SpongeInst) := do
  let (c, sp) ← zeroPad P sec sp
  if c ≠ 0 then some (1, sp) else Sponge.absorb P sp (leftEncode (BitVec.ofNat 64 B))

/-- `ParallelHash_Initialize` (SP800-185.inc:293-338). -/
def phInit (sec : Nat) (mem : PhInst) (B outputBitLen : Nat) (customization : Bytes) (customBitLen : Nat) :
    Option (Nat × PhInst) :=
  if B < 8 then some (1, mem)
  else do
    let ok ← pow2Loop 65 B
    if ok = false then some (1, mem)
    else
      let (c, sp) := spongeInit P sec mem.finalNode
      if c ≠ 0 then some (1, { mem with finalNode := sp })
      else
        let phi : PhInst :=
          { queueNode := mem.queueNode, finalNode := sp, fixedOutputLength := outputBitLen, blockLen := B,
            queueAbsorbedLen := 0, totalInputSize := 0, phase := .absorbing }
        do
        let s ← SnP.readBuf customization (bytesFor customBitLen)
        let (c, sp) ← absorbSeq P sp
          [leftEncode (BitVec.ofNat 64 (rateBytes sec)), nameBytes,
           leftEncode (BitVec.ofNat 64 customBitLen), s]
        if c ≠ 0 then some (1, { phi with finalNode := sp })
        else do
          let (c, sp) ← initTail P sec B sp
          some (c, { phi with finalNode := sp })

/-- The part of `ParallelHash_Update` that completes the block in the queue (SP800-185.inc:350-368): return
code, instance and remaining input. -/
def updQueue (sec : Nat) (phi : PhInst) (data : Bytes) : Option (Nat × PhInst × Bytes) :=
  if phi.queueAbsorbedLen ≠ 0 then do
    let room := phi.blockLen - phi.queueAbsorbedLen
    let len := if data.length < room then data.length else room
    let piece ← SnP.readBuf data len
    let (c, q) ← Sponge.absorb P phi.queueNode piece
    if c ≠ 0 then some (1, { phi with queueNode := q }, data)
    else
      let data := data.drop len
      let phi := { phi with queueNode := q, queueAbsorbedLen := phi.queueAbsorbedLen + len }
      if phi.queueAbsorbedLen = phi.blockLen then do
        let (c, q, fin) ← PlSnP.closeLeaf P 0x1F (capBytes sec) phi.queueNode phi.finalNode
        some (c, { phi with queueNode := q, finalNode := fin, queueAbsorbedLen := 0 }, data)
      else some (0, phi, data)
  else some (0, phi, data)

/-- The last loop of `ParallelHash_Update` (SP800-185.inc:394-413). -/
def updRest (sec : Nat) : Nat → PhInst → Bytes → Option (Nat × PhInst)
  | 0, _, _ => none
  | fuel + 1, phi, data =>
    if 0 < data.length then do
      let len := if data.length < phi.blockLen then data.length else phi.blockLen
      let (c, q) := spongeInit P sec phi.queueNode
      if c ≠ 0 then some (1, { phi with queueNode := q }) else do
      let piece ← SnP.readBuf data len
      let (c, q) ← Sponge.absorb P q piece
      if c ≠ 0 then some (1, { phi with queueNode := q }) else
      if len = phi.blockLen then do
        let (c, q, fin) ← PlSnP.closeLeaf P 0x1F (capBytes sec) q phi.finalNode
        if c ≠ 0 then some (1, { phi with queueNode := q, finalNode := fin })
        else updRest sec fuel { phi with queueNode := q, finalNode := fin } (data.drop len)
      else updRest sec fuel { phi with queueNode := q, queueAbsorbedLen := len } (data.drop len)
    else some (0, phi)

/-- SP800-185.inc:370-416: parallel loops, then the rest. -/
def updBlocks (sec : Nat) (cfgs : List PlSnP.Cfg) (phi : PhInst) (data : Bytes) : Option (Nat × PhInst) := do
  let (c, fin, data, _) ← PlSnP.leafStages P (leaf sec phi.blockLen) cfgs phi.finalNode data
  if c ≠ 0 then some (1, { phi with finalNode := fin })
  else updRest P sec (data.length + 1) { phi with finalNode := fin } data

/-- `ParallelHash_Update` (SP800-185.inc:340-416). -/
def phUpdate (sec : Nat) (cfgs : List PlSnP.Cfg) (phi : PhInst) (input : Bytes) (inputBitLen : Nat) :
    Option (Nat × PhInst) :=
  if phi.phase ≠ .absorbing then some (1, phi)
  else if inputBitLen % 8 ≠ 0 then some (1, phi)
  else do
    let phi := { phi with totalInputSize := (phi.totalInputSize + inputBitLen) % 2 ^ 64 }
    let data ← SnP.readBuf input (inputBitLen / 8)
    let (c, phi, data) ← updQueue P sec phi data
    if c ≠ 0 then some (1, phi) else updBlocks P sec cfgs phi data

/-- `ParallelHash_Squeeze` (SP800-185.inc:454-465). -/
def phSqueeze (phi : PhInst) (outputBitLen : Nat) : Option (Nat × PhInst × Bytes) :=
  if phi.phase ≠ .squeezing then some (1, phi, [])
  else do
    let (c, sp, out) ← Sponge.squeeze P phi.finalNode (bytesFor outputBitLen)
    let phi := { phi with finalNode := sp }
    if c ≠ 0 then some (1, phi, out)
    else if outputBitLen % 8 ≠ 0 then do
      let out ← maskLast out outputBitLen
      some (0, { phi with phase := .final }, out)
    else some (0, phi, out)

/-- `nBlocks = (totalInputSize / 8 + blockLen - 1) / blockLen` (SP800-185.inc:436) on `size_t`. -/
def nBlocks (phi : PhInst) : Nat := (phi.totalInputSize / 8 + phi.blockLen - 1) % 2 ^ 64 / phi.blockLen

/-- The part of `ParallelHash_Final` that closes the block in the queue (SP800-185.inc:425-434). -/
def finQueue (sec : Nat) (phi : PhInst) : Option (Nat × PhInst) :=
  if phi.queueAbsorbedLen ≠ 0 then do
    let (c, q, fin) ← PlSnP.closeLeaf P 0x1F (capBytes sec) phi.queueNode phi.finalNode
    some (c, { phi with queueNode := q, finalNode := fin })
  else some (0, phi)

/-- The end of `ParallelHash_Final` (SP800-185.inc:445-451). -/
def finSwitch (phi : PhInst) : Option (Nat × PhInst × Bytes) :=
  if phi.fixedOutputLength ≠ 0 then do
    let (c, phi, out) ← phSqueeze P phi phi.fixedOutputLength
    if c ≠ 0 then some (1, phi, out)
    else some (0, { phi with phase := .final }, out)
  else some (0, phi, [])

/-- `ParallelHash_Final` (SP800-185.inc:418-452). -/
def phFinal (sec : Nat) (phi : PhInst) : Option (Nat × PhInst × Bytes) :=
  if phi.phase ≠ .absorbing then some (1, phi, [])
  else do
    let (c, phi) ← finQueue P sec phi
    if c ≠ 0 then some (1, phi, []) else do
    let (c, sp) ← absorbSeq P phi.finalNode
      [rightEncode (BitVec.ofNat 64 (nBlocks phi)), rightEncode (BitVec.ofNat 64 phi.fixedOutputLength)]
    if c ≠ 0 then some (1, { phi with finalNode := sp }, []) else do
    let (c, sp) ← Sponge.absorbLastFewBits P sp 0x04
    if c ≠ 0 then some (1, { phi with finalNode := sp }, []) else
    finSwitch P { phi with finalNode := sp, phase := .squeezing }

/-- `ParallelHash`, the one-call function (SP800-185.inc:467-479). -/
def ParallelHash (sec : Nat) (cfgs : List PlSnP.Cfg) (stack : PhInst) (input : Bytes)
    (inputBitLen B outputBitLen : Nat) (customization : Bytes) (customBitLen : Nat) :
    Option (Nat × Bytes) :=
  if outputBitLen = 0 then some (1, [])
  else do
    let (c, phi) ← phInit P sec stack B outputBitLen customization customBitLen
    if c ≠ 0 then some (1, []) else do
    let (c, phi) ← phUpdate P sec cfgs phi input inputBitLen
    if c ≠ 0 then some (1, []) else do
    let (c, _, out) ← phFinal P sec phi
    some (c, out)

end ParallelHash
