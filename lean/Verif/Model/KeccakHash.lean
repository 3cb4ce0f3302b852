import Verif.Model.Sponge

/-!
# Keccak_Hash, SHA-3/SHAKE one-call functions and TurboSHAKE

Models `lib/high/Keccak/FIPS202/KeccakHash.c`, `lib/high/Keccak/FIPS202/SimpleFIPS202.c` and
`lib/high/TurboSHAKE/TurboSHAKE.c`.  The permutation is a parameter: `KeccakWidth1600_*` is the sponge of
`Verif.Model.Sponge` with `P` = Keccak-f[1600] and `TurboSHAKE_Sponge*` the same with `P` =
Keccak-p[1600, 12] (KeccakSponge.c:78-95, TurboSHAKE.c:22-36).
-/

/-- `Keccak_HashInstance` (KeccakHash.h:35-39). -/
structure HashInst where
  sponge : SpongeInst
  /-- in bits -/
  fixedOutputLength : Nat
  delimitedSuffix : Byte
deriving Repr, DecidableEq

namespace KeccakHash

variable (P : SnP)

/-- `Keccak_HashInitialize` (KeccakHash.c:22-34). -/
def hashInit (mem : HashInst) (rate capacity hashbitlen : BitVec 32) (delimitedSuffix : Byte) :
    Nat × HashInst :=
  if delimitedSuffix = 0 then (1, mem)
  else
    let (result, sponge) := Sponge.spongeInit P mem.sponge rate capacity
    if result ≠ 0 then (result, { mem with sponge := sponge })
    else (0, { sponge := sponge, fixedOutputLength := hashbitlen.toNat, delimitedSuffix := delimitedSuffix })

/-- The 16-bit word of KeccakHash.c:48: the `k` low bits of the last byte followed by the suffix. -/
def delimitedLastBytes (lastByte suffix : Byte) (k : Nat) : BitVec 16 :=
  (lastByte.setWidth 16 &&& ((1#16 <<< k) - 1)) ||| (suffix.setWidth 16 <<< k)

/-- `Keccak_HashUpdate` (KeccakHash.c:38-61); `data` is the caller's buffer. -/
def hashUpdate (inst : HashInst) (data : Bytes) (databitlen : Nat) : Option (Nat × HashInst) := do
  let whole ← SnP.readBuf data (databitlen / 8)
  if databitlen % 8 = 0 then
    let (ret, sp) ← Sponge.absorb P inst.sponge whole
    some (ret, { inst with sponge := sp })
  else
    let (ret, sp) ← Sponge.absorb P inst.sponge whole
    if ret = 0 then
      let lastByte ← data[databitlen / 8]?
      let w := delimitedLastBytes lastByte inst.delimitedSuffix (databitlen % 8)
      if w &&& 0xFF00 = 0 then
        some (0, { inst with sponge := sp, delimitedSuffix := (w &&& 0xFF).setWidth 8 })
      else
        let (ret, sp) ← Sponge.absorb P sp [(w &&& 0xFF).setWidth 8]
        some (ret, { inst with sponge := sp, delimitedSuffix := ((w >>> 8) &&& 0xFF).setWidth 8 })
    else some (ret, { inst with sponge := sp })

/-- `Keccak_HashFinal` (KeccakHash.c:65-72): code, instance, bytes written to `hashval`. -/
def hashFinal (inst : HashInst) : Option (Nat × HashInst × Bytes) := do
  let (ret, sp) ← Sponge.absorbLastFewBits P inst.sponge inst.delimitedSuffix
  if ret = 0 then
    let (ret, sp, out) ← Sponge.squeeze P sp (inst.fixedOutputLength / 8)
    some (ret, { inst with sponge := sp }, out)
  else some (ret, { inst with sponge := sp }, [])

/-- `Keccak_HashSqueeze` (KeccakHash.c:76-81). -/
def hashSqueeze (inst : HashInst) (databitlen : Nat) : Option (Nat × HashInst × Bytes) :=
  if databitlen % 8 ≠ 0 then some (1, inst, [])
  else do
    let (ret, sp, out) ← Sponge.squeeze P inst.sponge (databitlen / 8)
    some (ret, { inst with sponge := sp }, out)

/-- `SHAKE128` (SimpleFIPS202.c:20-23). -/
def SHAKE128 (input : Bytes) (n : Nat) := Sponge.sponge P 1344 256 input 0x1F n
/-- `SHAKE256` (SimpleFIPS202.c:25-28). -/
def SHAKE256 (input : Bytes) (n : Nat) := Sponge.sponge P 1088 512 input 0x1F n
/-- `SHA3_224` (SimpleFIPS202.c:30-33). -/
def SHA3_224 (input : Bytes) := Sponge.sponge P 1152 448 input 0x06 (224 / 8)
/-- `SHA3_256` (SimpleFIPS202.c:35-38). -/
def SHA3_256 (input : Bytes) := Sponge.sponge P 1088 512 input 0x06 (256 / 8)
/-- `SHA3_384` (SimpleFIPS202.c:40-43). -/
def SHA3_384 (input : Bytes) := Sponge.sponge P 832 768 input 0x06 (384 / 8)
/-- `SHA3_512` (SimpleFIPS202.c:45-48). -/
def SHA3_512 (input : Bytes) := Sponge.sponge P 576 1024 input 0x06 (512 / 8)

/-- `Keccak_HashInitialize_SHAKE128` (KeccakHash.h:61). -/
def initSHAKE128 (mem : HashInst) := hashInit P mem 1344 256 0 0x1F
/-- `Keccak_HashInitialize_SHAKE256` (KeccakHash.h:65). -/
def initSHAKE256 (mem : HashInst) := hashInit P mem 1088 512 0 0x1F
/-- `Keccak_HashInitialize_SHA3_224` (KeccakHash.h:69). -/
def initSHA3_224 (mem : HashInst) := hashInit P mem 1152 448 224 0x06
/-- `Keccak_HashInitialize_SHA3_256` (KeccakHash.h:73). -/
def initSHA3_256 (mem : HashInst) := hashInit P mem 1088 512 256 0x06
/-- `Keccak_HashInitialize_SHA3_384` (KeccakHash.h:77). -/
def initSHA3_384 (mem : HashInst) := hashInit P mem 832 768 384 0x06
/-- `Keccak_HashInitialize_SHA3_512` (KeccakHash.h:81). -/
def initSHA3_512 (mem : HashInst) := hashInit P mem 576 1024 512 0x06

end KeccakHash

namespace TurboSHAKE

variable (P : SnP)

/-- `TurboSHAKE_Initialize` (TurboSHAKE.c:52-58). -/
def init (mem : SpongeInst) (capacity : BitVec 32) : Nat × SpongeInst :=
  if 512 < capacity ∨ capacity % 8 ≠ 0 then (1, mem)
  else Sponge.spongeInit P mem (1600 - capacity) capacity

/-- `TurboSHAKE_Absorb` (TurboSHAKE.c:60-63). -/
def absorb (inst : SpongeInst) (data : Bytes) := Sponge.absorb P inst data

/-- `TurboSHAKE_AbsorbDomainSeparationByte` (TurboSHAKE.c:65-68). -/
def absorbDomainSeparationByte (inst : SpongeInst) (domain : Byte) :=
  Sponge.absorbLastFewBits P inst domain

/-- `TurboSHAKE_Squeeze` (TurboSHAKE.c:70-73). -/
def squeeze (inst : SpongeInst) (n : Nat) := Sponge.squeeze P inst n

/-- `TurboSHAKE` (TurboSHAKE.c:41-50); `stack` is the uninitialised local instance. -/
def turboSHAKE (stack : SpongeInst) (capacity : BitVec 32) (input : Bytes) (domain : Byte) (n : Nat) :
    Option (Nat × Bytes) :=
  let (c, i) := init P stack capacity
  if c ≠ 0 then some (1, []) else do
  let (c, i) ← absorb P i input
  if c ≠ 0 then some (1, []) else do
  let (c, i) ← absorbDomainSeparationByte P i domain
  if c ≠ 0 then some (1, []) else do
  let (c, _, out) ← squeeze P i n
  if c ≠ 0 then some (1, out) else some (0, out)

end TurboSHAKE
