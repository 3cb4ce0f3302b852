import Verif.Model.Sponge

/-!
# SP 800-185: encodings, cSHAKE, KMAC and TupleHash

Models `lib/high/Keccak/SP800-185/SP800-185.c` and `SP800-185.inc`.  The code is instantiated for
`security` 128 and 256 (SP800-185.c:87-93); here `sec` is a parameter.  `P` stands for Keccak-f[1600].

`BitLength` is `size_t`, a 64-bit unsigned integer: lengths are natural numbers, reduced modulo 2^64 where
the code computes one that can wrap around.  Buffers are byte lists and reading past their end is `none`.
-/

namespace SP800185

/-- The counting loop of `left_encode`/`right_encode` (SP800-185.c:55-56, 72-73):
`for (v = value, n = 0; v && (n < sizeof(size_t)); ++n, v >>= 8);` with `left` = `sizeof(size_t) - n`. -/
def countBytes : Nat → BitVec 64 → Nat
  | 0, _ => 0
  | left + 1, v => if v = 0 then 0 else countBytes left (v >>> 8) + 1

/-- `n` after line 58/75: at least one byte. -/
def encodeLen (value : BitVec 64) : Nat :=
  if countBytes 8 value = 0 then 1 else countBytes 8 value

/-- Lines 59-62 / 76-79: the bytes `(unsigned char)(value >> (8 * (n-i)))` for `i = 1..n`. -/
def encodeBytes (value : BitVec 64) (n : Nat) : Bytes :=
  (List.range n).map fun i => (value >>> (8 * (n - (i + 1)))).setWidth 8

/-- `left_encode` (SP800-185.c:50-65): the `n + 1` bytes written to `encbuf`. -/
def leftEncode (value : BitVec 64) : Bytes :=
  BitVec.ofNat 8 (encodeLen value) :: encodeBytes value (encodeLen value)

/-- `right_encode` (SP800-185.c:67-82). -/
def rightEncode (value : BitVec 64) : Bytes :=
  encodeBytes value (encodeLen value) ++ [BitVec.ofNat 8 (encodeLen value)]

end SP800185

/-- The phases of `Phases.h`. -/
inductive Phase | notInitialized | absorbing | final | squeezing
deriving Repr, DecidableEq

/-- `cSHAKE_Instance` (SP800-185.h:36-43). -/
structure CShakeInst where
  sponge : SpongeInst
  fixedOutputLength : Nat
  lastByteBitLen : Nat
  lastByteValue : Byte
  emptyNameCustom : Bool
  phase : Phase
deriving Repr, DecidableEq

/-- `KMAC_Instance` (SP800-185.h:177-180) and `TupleHash_Instance` (SP800-185.h:460-463), which have the
same fields. -/
structure KmacInst where
  csi : CShakeInst
  outputBitLen : Nat
deriving Repr, DecidableEq

namespace SP800185

variable (P : SnP)

/-- `(x + 7) / 8` on `size_t`. -/
def bytesFor (x : Nat) : Nat := (x + 7) % 2 ^ 64 / 8

/-- `rateInBytes` (SP800-185.inc:20-24). -/
def rateBytes (sec : Nat) : Nat := (1600 - 2 * sec) / 8

/-- The call `KeccakWidth1600_SpongeInitialize(.., rate, capacity)` (SP800-185.inc:41, 304, 396). -/
def spongeInit (sec : Nat) (mem : SpongeInst) : Nat × SpongeInst :=
  Sponge.spongeInit P mem (BitVec.ofNat 32 (1600 - 2 * sec)) (BitVec.ofNat 32 (2 * sec))

/-- A sequence of statements `if (SpongeAbsorb(.., piece) != 0) return 1;`. -/
def absorbSeq (i : SpongeInst) : List Bytes → Option (Nat × SpongeInst)
  | [] => some (0, i)
  | x :: xs => do
    let (c, i) ← Sponge.absorb P i x
    if c ≠ 0 then some (1, i) else absorbSeq i xs

/-- "Zero padding up to rate" (SP800-185.inc:71-75, 327-332). -/
def zeroPad (sec : Nat) (i : SpongeInst) : Option (Nat × SpongeInst) :=
  if i.byteIOIndex ≠ 0 then Sponge.absorb P { i with byteIOIndex := rateBytes sec - 1 } [0]
  else some (0, i)

/-- `cSHAKE_Initialize` (SP800-185.inc:34-78). -/
def cInit (sec : Nat) (mem : CShakeInst) (outputBitLen : Nat) (name : Bytes) (nameBitLen : Nat)
    (customization : Bytes) (customBitLen : Nat) : Option (Nat × CShakeInst) :=
  if nameBitLen % 8 ≠ 0 then some (1, mem)
  else
    let (c, sp) := spongeInit P sec mem.sponge
    if c ≠ 0 then some (1, { mem with sponge := sp })
    else
      let csk : CShakeInst :=
        { sponge := sp, fixedOutputLength := outputBitLen, lastByteBitLen := 0, lastByteValue := 0,
          emptyNameCustom := mem.emptyNameCustom, phase := .absorbing }
      if nameBitLen = 0 ∧ customBitLen = 0 then some (0, { csk with emptyNameCustom := true })
      else do
        let n ← SnP.readBuf name (nameBitLen / 8)
        let s ← SnP.readBuf customization (bytesFor customBitLen)
        let (c, sp) ← absorbSeq P sp
          [leftEncode (BitVec.ofNat 64 (rateBytes sec)), leftEncode (BitVec.ofNat 64 nameBitLen), n,
           leftEncode (BitVec.ofNat 64 customBitLen), s]
        let csk := { csk with sponge := sp, emptyNameCustom := false }
        if c ≠ 0 then some (1, csk)
        else do
          let (c, sp) ← zeroPad P sec sp
          some (c, { csk with sponge := sp })

/-- `cSHAKE_Update` (SP800-185.inc:80-91). -/
def cUpdate (csk : CShakeInst) (input : Bytes) (inputBitLen : Nat) : Option (Nat × CShakeInst) :=
  if csk.phase ≠ .absorbing then some (1, csk)
  else if csk.lastByteBitLen ≠ 0 then some (1, csk)
  else do
    let k := inputBitLen % 8
    let lastByteValue ←
      if k ≠ 0 then input[inputBitLen / 8]?.map fun b => b &&& ((1#8 <<< k) - 1)
      else some csk.lastByteValue
    let data ← SnP.readBuf input (inputBitLen / 8)
    let (c, sp) ← Sponge.absorb P csk.sponge data
    some (c, { csk with sponge := sp, lastByteBitLen := k, lastByteValue := lastByteValue })

/-- `output[outputBitLen / 8] &= (1 << (outputBitLen & 7)) - 1` (SP800-185.inc:134, 461), on the bytes just
written. -/
def maskLast (out : Bytes) (outputBitLen : Nat) : Option Bytes :=
  match out[outputBitLen / 8]? with
  | none => none
  | some b => some (out.set (outputBitLen / 8) (b &&& ((1#8 <<< (outputBitLen % 8)) - 1)))

/-- `cSHAKE_Squeeze` (SP800-185.inc:127-138). -/
def cSqueeze (csk : CShakeInst) (outputBitLen : Nat) : Option (Nat × CShakeInst × Bytes) :=
  if csk.phase ≠ .squeezing then some (1, csk, [])
  else do
    let (c, sp, out) ← Sponge.squeeze P csk.sponge (bytesFor outputBitLen)
    let csk := { csk with sponge := sp }
    if c ≠ 0 then some (1, csk, out)
    else if outputBitLen % 8 ≠ 0 then do
      let out ← maskLast out outputBitLen
      some (0, { csk with phase := .final }, out)
    else some (0, csk, out)

/-- The end of `cSHAKE_Final` (SP800-185.inc:119-124), on an instance already in the squeezing phase. -/
def cSwitch (csk : CShakeInst) : Option (Nat × CShakeInst × Bytes) :=
  if csk.fixedOutputLength ≠ 0 then do
    let (c, csk, out) ← cSqueeze P csk csk.fixedOutputLength
    if c ≠ 0 then some (1, csk, out)
    else some (0, { csk with phase := .final }, out)
  else some (0, csk, [])

/-- SP800-185.inc:116-124: absorb the delimited suffix, then `cSwitch`. -/
def cFinish (csk : CShakeInst) (sp : SpongeInst) (delimitedSuffix : Byte) :
    Option (Nat × CShakeInst × Bytes) := do
  let (c, sp) ← Sponge.absorbLastFewBits P sp delimitedSuffix
  if c ≠ 0 then some (1, { csk with sponge := sp }, [])
  else cSwitch P { csk with sponge := sp, phase := .squeezing }

/-- The 16-bit word of SP800-185.inc:102-105. -/
def cLastBytes (csk : CShakeInst) : BitVec 16 :=
  if csk.emptyNameCustom then csk.lastByteValue.setWidth 16 ||| (0x1F#16 <<< csk.lastByteBitLen)
  else csk.lastByteValue.setWidth 16 ||| (0x04#16 <<< csk.lastByteBitLen)

/-- `cSHAKE_Final` (SP800-185.inc:93-125). -/
def cFinal (csk : CShakeInst) : Option (Nat × CShakeInst × Bytes) :=
  if csk.phase ≠ .absorbing then some (1, csk, [])
  else
    if cLastBytes csk >>> 8 = 0 then cFinish P csk csk.sponge ((cLastBytes csk).setWidth 8)
    else do
      let (c, sp) ← Sponge.absorb P csk.sponge [(cLastBytes csk).setWidth 8]
      if c ≠ 0 then some (1, { csk with sponge := sp }, [])
      else cFinish P csk sp ((cLastBytes csk >>> 8).setWidth 8)

/-- `cSHAKE`, the one-call function (SP800-185.inc:140-152); `stack` is the uninitialised local instance. -/
def cSHAKE (sec : Nat) (stack : CShakeInst) (input : Bytes) (inputBitLen outputBitLen : Nat)
    (name : Bytes) (nameBitLen : Nat) (customization : Bytes) (customBitLen : Nat) :
    Option (Nat × Bytes) :=
  if outputBitLen = 0 then some (1, [])
  else do
    let (c, csk) ← cInit P sec stack outputBitLen name nameBitLen customization customBitLen
    if c ≠ 0 then some (1, []) else do
    let (c, csk) ← cUpdate P csk input inputBitLen
    if c ≠ 0 then some (1, []) else do
    let (c, _, out) ← cFinal P csk
    some (c, out)

/-! ### KMAC -/

/-- The string literal `"KMAC"` (SP800-185.inc:168). -/
def kmacName : Bytes := [0x4B, 0x4D, 0x41, 0x43]

/-- A sequence of statements `if (cSHAKE_Update(.., piece, bits) != 0) return 1;`. -/
def cUpdateSeq (csk : CShakeInst) : List (Bytes × Nat) → Option (Nat × CShakeInst)
  | [] => some (0, csk)
  | x :: xs => do
    let (c, csk) ← cUpdate P csk x.1 x.2
    if c ≠ 0 then some (1, csk) else cUpdateSeq csk xs

/-- The zero padding of `KMAC_Initialize` (lines 180-186): the pieces to absorb, from the number of bytes
already written modulo the rate. -/
def kmacPad (sec : Nat) (bufferLen : Nat) : List (Bytes × Nat) :=
  let b := bufferLen % rateBytes sec
  if b ≠ 0 then [(Bytes.zeros (rateBytes sec - b), (rateBytes sec - b) * 8)] else []

/-- `KMAC_Initialize` (SP800-185.inc:162-188). -/
def kmacInit (sec : Nat) (mem : KmacInst) (key : Bytes) (keyBitLen outputBitLen : Nat)
    (customization : Bytes) (customBitLen : Nat) : Option (Nat × KmacInst) := do
  let (c, csi) ← cInit P sec mem.csi outputBitLen kmacName 32 customization customBitLen
  if c ≠ 0 then some (1, { mem with csi := csi })
  else
    let buffer := leftEncode (BitVec.ofNat 64 (rateBytes sec)) ++ leftEncode (BitVec.ofNat 64 keyBitLen)
    let keyByteLen := bytesFor keyBitLen
    let (c, csi) ← cUpdateSeq P csi
      ([(buffer, buffer.length * 8), (key, keyByteLen * 8)] ++ kmacPad sec (buffer.length + keyByteLen))
    some (c, { csi := csi, outputBitLen := outputBitLen })

/-- `KMAC_Update` (SP800-185.inc:190-195). -/
def kmacUpdate (km : KmacInst) (input : Bytes) (inputBitLen : Nat) : Option (Nat × KmacInst) :=
  if inputBitLen % 8 ≠ 0 then some (1, km)
  else do
    let (c, csi) ← cUpdate P km.csi input inputBitLen
    some (c, { km with csi := csi })

/-- `KMAC_Final` (SP800-185.inc:197-204) and `TupleHash_Final` (lines 523-530). -/
def kmacFinal (km : KmacInst) : Option (Nat × KmacInst × Bytes) := do
  let enc := rightEncode (BitVec.ofNat 64 km.outputBitLen)
  let (c, csi) ← cUpdate P km.csi enc (enc.length * 8)
  if c ≠ 0 then some (1, { km with csi := csi }, [])
  else do
    let (c, csi, out) ← cFinal P csi
    some (c, { km with csi := csi }, out)

/-- `KMAC_Squeeze` (SP800-185.inc:206-209) and `TupleHash_Squeeze` (lines 532-535). -/
def kmacSqueeze (km : KmacInst) (outputBitLen : Nat) : Option (Nat × KmacInst × Bytes) := do
  let (c, csi, out) ← cSqueeze P km.csi outputBitLen
  some (c, { km with csi := csi }, out)

/-- `KMAC`, the one-call function (SP800-185.inc:211-223). -/
def KMAC (sec : Nat) (stack : KmacInst) (key : Bytes) (keyBitLen : Nat) (input : Bytes)
    (inputBitLen outputBitLen : Nat) (customization : Bytes) (customBitLen : Nat) :
    Option (Nat × Bytes) :=
  if outputBitLen = 0 then some (1, [])
  else do
    let (c, km) ← kmacInit P sec stack key keyBitLen outputBitLen customization customBitLen
    if c ≠ 0 then some (1, []) else do
    let (c, km) ← kmacUpdate P km input inputBitLen
    if c ≠ 0 then some (1, []) else do
    let (c, _, out) ← kmacFinal P km
    some (c, out)

/-! ### TupleHash -/

/-- The string literal `"TupleHash"` (SP800-185.inc:501). -/
def tupleName : Bytes := [0x54, 0x75, 0x70, 0x6C, 0x65, 0x48, 0x61, 0x73, 0x68]

/-- `TupleHash_Initialize` (SP800-185.inc:498-505). -/
def tupleInit (sec : Nat) (mem : KmacInst) (outputBitLen : Nat) (customization : Bytes)
    (customBitLen : Nat) : Option (Nat × KmacInst) := do
  let (c, csi) ← cInit P sec mem.csi outputBitLen tupleName 72 customization customBitLen
  if c ≠ 0 then some (1, { mem with csi := csi })
  else some (0, { csi := csi, outputBitLen := outputBitLen })

/-- `TupleHash_Update` (SP800-185.inc:507-521); the array of `TupleElement` is a list of
(input, inputBitLen). -/
def tupleUpdate (thi : KmacInst) : List (Bytes × Nat) → Option (Nat × KmacInst)
  | [] => some (0, thi)
  | e :: es =>
    if e.2 % 8 ≠ 0 then some (1, thi)
    else do
      let enc := leftEncode (BitVec.ofNat 64 e.2)
      let (c, csi) ← cUpdate P thi.csi enc (enc.length * 8)
      if c ≠ 0 then some (1, { thi with csi := csi }) else do
      let (c, csi) ← cUpdate P csi e.1 e.2
      if c ≠ 0 then some (1, { thi with csi := csi }) else
      tupleUpdate { thi with csi := csi } es

/-- `TupleHash`, the one-call function (SP800-185.inc:537-549). -/
def TupleHash (sec : Nat) (stack : KmacInst) (tuple : List (Bytes × Nat)) (outputBitLen : Nat)
    (customization : Bytes) (customBitLen : Nat) : Option (Nat × Bytes) :=
  if outputBitLen = 0 then some (1, [])
  else do
    let (c, thi) ← tupleInit P sec stack outputBitLen customization customBitLen
    if c ≠ 0 then some (1, []) else do
    let (c, thi) ← tupleUpdate P thi tuple
    if c ≠ 0 then some (1, []) else do
    let (c, _, out) ← kmacFinal P thi
    some (c, out)

end SP800185
