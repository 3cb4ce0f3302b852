import Verif.Model.SnP

/-!
# The sponge construction

Models `lib/high/Keccak/KeccakSponge.inc` (and `KeccakSponge.h:27-33` for the instance structure).
A C function returning an error code and updating an instance becomes a function returning
`Option (code × instance)`; `none` is undefined behaviour or non-termination.

Simplifications: a `(curData, i)` pair is represented by the list of bytes that remain from `curData`
on, so `dataByteLen - i` is its length; output buffers are represented by the list of bytes written,
in order; `displayBytes` calls (debugging) are dropped.
-/

/-- `XKCP_DeclareSpongeStructure` (KeccakSponge.h:27-33). -/
structure SpongeInst where
  state : Bytes
  /-- rate in bits -/
  rate : Nat
  byteIOIndex : Nat
  squeezing : Bool
deriving Repr, DecidableEq

namespace Sponge

variable (P : SnP)

/-- The parameter check shared by `Sponge` and `SpongeInitialize` (KeccakSponge.inc:41-44, 134-137), on
32-bit unsigned integers: `rate+capacity != SnP_width`, `rate <= 0`, `rate > SnP_width`,
`rate % 8 != 0`. -/
def badParams (rate capacity : BitVec 32) : Bool :=
  rate + capacity != BitVec.ofNat 32 (P.width * 8) ||
  (rate == 0 || BitVec.ofNat 32 (P.width * 8) < rate || rate % 8 != 0)

/-- The loop absorbing whole blocks: `while(inputByteLen >= rateInBytes)` (KeccakSponge.inc:62-70) and
`for(j=dataByteLen-i; j>=rateInBytes; j-=rateInBytes)` (KeccakSponge.inc:173-180).
Returns the state and the remaining input. -/
def absorbWhole (rateInBytes : Nat) : Nat → Bytes → Bytes → Option (Bytes × Bytes)
  | 0, _, _ => none
  | fuel + 1, s, cur =>
    if cur.length ≥ rateInBytes then do
      let blk ← SnP.readBuf cur rateInBytes
      let s ← SnP.addBytes s blk 0
      absorbWhole rateInBytes fuel (P.permute s) (cur.drop rateInBytes)
    else some (s, cur)

/-- `SpongeInitialize` (KeccakSponge.inc:132-145); `inst` is the previous content of the memory. -/
def spongeInit (inst : SpongeInst) (rate capacity : BitVec 32) : Nat × SpongeInst :=
  if badParams P rate capacity then (1, inst)
  else (0, { state := P.init, rate := rate.toNat, byteIOIndex := 0, squeezing := false })

/-- The `while(i < dataByteLen)` loop of `SpongeAbsorb` (KeccakSponge.inc:161-205): arguments are the
state, `byteIOIndex` and the remaining data. -/
def absorbLoop (rateInBytes : Nat) : Nat → Bytes → Nat → Bytes → Option (Bytes × Nat)
  | 0, _, _, _ => none
  | fuel + 1, s, idx, cur =>
    if 0 < cur.length then
      if idx = 0 ∧ cur.length ≥ rateInBytes then
        match P.fast with
        | some F =>
          if rateInBytes % P.laneBytes = 0 then
            -- fast lane: whole lane rate (lines 165-170)
            let (s, j) := F s (rateInBytes / P.laneBytes) cur
            absorbLoop rateInBytes fuel s idx (cur.drop j)
          else do
            let (s, cur) ← absorbWhole P rateInBytes (cur.length + 1) s cur
            absorbLoop rateInBytes fuel s idx cur
        | none => do
          let (s, cur) ← absorbWhole P rateInBytes (cur.length + 1) s cur
          absorbLoop rateInBytes fuel s idx cur
      else do
        -- normal lane: using the message queue (lines 186-204)
        let partialBlock := if cur.length > rateInBytes - idx then rateInBytes - idx else cur.length
        let piece ← SnP.readBuf cur partialBlock
        let s ← SnP.addBytes s piece idx
        let idx := idx + partialBlock
        if idx = rateInBytes then
          absorbLoop rateInBytes fuel (P.permute s) 0 (cur.drop partialBlock)
        else
          absorbLoop rateInBytes fuel s idx (cur.drop partialBlock)
    else some (s, idx)

/-- `SpongeAbsorb` (KeccakSponge.inc:149-207). -/
def absorb (inst : SpongeInst) (data : Bytes) : Option (Nat × SpongeInst) :=
  let rateInBytes := inst.rate / 8
  if inst.squeezing then some (1, inst)
  else do
    let (s, idx) ← absorbLoop P rateInBytes (data.length + 1) inst.state inst.byteIOIndex data
    some (0, { inst with state := s, byteIOIndex := idx })

/-- `SpongeAbsorbLastFewBits` (KeccakSponge.inc:211-249). -/
def absorbLastFewBits (inst : SpongeInst) (delimitedData : Byte) : Option (Nat × SpongeInst) :=
  let rateInBytes := inst.rate / 8
  if delimitedData = 0 then some (1, inst)
  else if inst.squeezing then some (1, inst)
  else do
    let s ← SnP.addByte inst.state delimitedData inst.byteIOIndex
    let s := if 0x80#8 ≤ delimitedData ∧ inst.byteIOIndex = rateInBytes - 1 then P.permute s else s
    let s ← SnP.addByte s 0x80 (rateInBytes - 1)
    some (0, { inst with state := P.permute s, byteIOIndex := 0, squeezing := true })

/-- The inner `for` loop of `SpongeSqueeze` (KeccakSponge.inc:267-275): `j` bytes are still wanted;
returns the state, the bytes written and the final `j`. -/
def squeezeWhole (rateInBytes : Nat) : Nat → Bytes → Nat → Option (Bytes × Bytes × Nat)
  | 0, _, _ => none
  | fuel + 1, s, j =>
    if j ≥ rateInBytes then do
      let s := P.permute s
      let blk ← SnP.extractBytes s 0 rateInBytes
      let (s, out, j) ← squeezeWhole rateInBytes fuel s (j - rateInBytes)
      some (s, blk ++ out, j)
    else some (s, [], j)

/-- The `while(i < dataByteLen)` loop of `SpongeSqueeze` (KeccakSponge.inc:265-296); `left` is
`dataByteLen - i`. Returns state, index and the bytes written. -/
def squeezeLoop (rateInBytes : Nat) : Nat → Bytes → Nat → Nat → Option (Bytes × Nat × Bytes)
  | 0, _, _, _ => none
  | fuel + 1, s, idx, left =>
    if 0 < left then
      if idx = rateInBytes ∧ left ≥ rateInBytes then do
        let (s, out, left) ← squeezeWhole P rateInBytes (left + 1) s left
        let (s, idx, out') ← squeezeLoop rateInBytes fuel s idx left
        some (s, idx, out ++ out')
      else do
        let (s, idx) := if idx = rateInBytes then (P.permute s, 0) else (s, idx)
        let partialBlock := if left > rateInBytes - idx then rateInBytes - idx else left
        let out ← SnP.extractBytes s idx partialBlock
        let (s, idx, out') ← squeezeLoop rateInBytes fuel s (idx + partialBlock) (left - partialBlock)
        some (s, idx, out ++ out')
    else some (s, idx, [])

/-- `SpongeSqueeze` (KeccakSponge.inc:253-298): return code, new instance and the output bytes. The return
code of the inner `SpongeAbsorbLastFewBits` is ignored, as in the C code. -/
def squeeze (inst : SpongeInst) (dataByteLen : Nat) : Option (Nat × SpongeInst × Bytes) := do
  let inst ← if !inst.squeezing then (absorbLastFewBits P inst 0x01).map Prod.snd else some inst
  let rateInBytes := inst.rate / 8
  let (s, idx, out) ←
    squeezeLoop P rateInBytes (dataByteLen + 1) inst.state inst.byteIOIndex dataByteLen
  some (0, { inst with state := s, byteIOIndex := idx }, out)

/-- The output loop of `Sponge` (KeccakSponge.inc:108-120). -/
def outputLoop (rateInBytes : Nat) : Nat → Bytes → Nat → Option Bytes
  | 0, _, _ => none
  | fuel + 1, s, outputByteLen =>
    if outputByteLen > rateInBytes then do
      let blk ← SnP.extractBytes s 0 rateInBytes
      let out ← outputLoop rateInBytes fuel (P.permute s) (outputByteLen - rateInBytes)
      some (blk ++ out)
    else SnP.extractBytes s 0 outputByteLen

/-- The optional fast lane of `Sponge` (KeccakSponge.inc:53-61): state and remaining input. -/
def spongeFast (rateInBytes : Nat) (s input : Bytes) : Bytes × Bytes :=
  match P.fast with
  | some F =>
    if rateInBytes % P.laneBytes = 0 ∧ input.length ≥ rateInBytes then
      let (s, j) := F s (rateInBytes / P.laneBytes) input
      (s, input.drop j)
    else (s, input)
  | none => (s, input)

/-- `Sponge`, the one-call function (KeccakSponge.inc:33-126): return code and output bytes (nothing is
written when the code is 1). -/
def sponge (rate capacity : BitVec 32) (input : Bytes) (suffix : Byte) (outputByteLen : Nat) :
    Option (Nat × Bytes) :=
  let rateInBytes := rate.toNat / 8
  if badParams P rate capacity then some (1, [])
  else if suffix = 0 then some (1, [])
  else do
    let s := P.init
    let (s, input) := spongeFast P rateInBytes s input
    -- lines 62-70
    let (s, input) ← absorbWhole P rateInBytes (input.length + 1) s input
    -- lines 73-77
    let partialBlock := input.length
    let piece ← SnP.readBuf input partialBlock
    let s ← SnP.addBytes s piece 0
    -- lines 88-102
    let s ← SnP.addByte s suffix partialBlock
    let s := if 0x80#8 ≤ suffix ∧ partialBlock = rateInBytes - 1 then P.permute s else s
    let s ← SnP.addByte s 0x80 (rateInBytes - 1)
    let s := P.permute s
    -- lines 108-120
    let out ← outputLoop P rateInBytes (outputByteLen + 1) s outputByteLen
    some (0, out)

end Sponge
