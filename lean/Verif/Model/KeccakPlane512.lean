import Verif.Model.KeccakAvx512
import Verif.Model.Relaned

/-!
# Keccak-p[1600] for AVX-512, in C

Models `lib/low/KeccakP-1600/AVX512/C/KeccakP-1600-AVX512.c` ("c" below) and the macro of `KeccakP-1600-SnP.h` next to it ("h"): one state,
each of whose five planes is held in a 512-bit register, of which the upper three lanes are not used.

* The state is its 200 bytes in memory.  Alignment is not modelled.
* The local variables `b0 ... b4`, assigned in every round before they are used, are local to the round.
* `unsigned int` is 32 bits wide: `24 - nrounds` and `laneCount * 8` are reduced modulo `2^32`.  `dataByteLen` is the size of the buffer `data`.
  The `unsigned` variable `offset` of the byte access functions does not wrap around (it stays within the state).
* The C versions of the intrinsics for `SIMULATE_AVX512` (c:60-209) are cited where they exist but not used: the one of
  `_mm512_rolv_epi64` shifts by 64, undefined in C, for the lanes rotated by 0.
-/

namespace Plane512

open KeccakP1600 (Lane wordOfBytes bytesOfWord)
open Simd (Vec xor roti unpacklo unpackhi storeWord)
open Avx512 (ternarylogic)

/-! ### Intrinsics -/

/-- `_mm512_setr_epi64` (c:115-128): the first argument is lane 0. -/
def setr (xs : List Nat) : Vec 8 := fun l => BitVec.ofNat 64 (xs.getD l.val 0)

/-- `_mm512_rolv_epi64` (c:105-113): every lane is rotated by its own offset, modulo 64. -/
def rolv (a o : Vec 8) : Vec 8 := fun l => (a l).rotateLeft ((o l).toNat % 64)

/-- `_mm512_permutexvar_epi64` (c:130-138). -/
def permutexvar (idx v : Vec 8) : Vec 8 := fun l => v.at ((idx l).toNat % 8)

/-- `_mm512_permutex2var_epi64` (c:140-151). -/
def permutex2var (a idx b : Vec 8) : Vec 8 := fun l =>
  if (idx l).toNat / 8 % 2 = 1 then b.at ((idx l).toNat % 8) else a.at ((idx l).toNat % 8)

/-- `_mm512_mask_blend_epi64` (c:177-185). -/
def maskBlend (mask : Nat) (a b : Vec 8) : Vec 8 := fun l => if mask.testBit l.val then b l else a l

/-- `_mm512_maskz_loadu_epi64` (c:187-196), from byte `at` of a buffer on: only the lanes selected by the mask are read. -/
def maskzLoad (mask : Nat) (buf : Bytes) (at_ : Nat) : Option (Vec 8) :=
  if ∀ i : Fin 8, mask.testBit i.val = true → at_ + 8 * i.val + 8 ≤ buf.length then
    some fun i => if mask.testBit i.val then wordOfBytes (buf.drop (at_ + 8 * i.val)) else 0
  else none

/-- `_mm512_mask_storeu_epi64` (c:198-206): only the lanes selected by the mask are written. -/
def maskStore (buf : Bytes) (at_ mask : Nat) (v : Vec 8) : Option Bytes :=
  (List.range 8).foldlM (fun buf i => if mask.testBit i then storeWord buf (at_ + 8 * i) (v.at i) else some buf) buf

/-- The bytes `_mm512_mask_storeu_epi64` writes from its pointer on, for a mask that selects the lowest lanes. -/
def maskBytes (mask : Nat) (v : Vec 8) : Bytes :=
  (List.range 8).flatMap fun i => if mask.testBit i then bytesOfWord (v.at i) else []

/-- `XOR3` (c:214). -/
def xor3 (a b c : Vec 8) : Vec 8 := ternarylogic a b c 0x96

/-- `XOR5` (c:215). -/
def xor5 (a b c d e : Vec 8) : Vec 8 := xor3 (xor3 a b c) d e

/-- `Chi` (c:217). -/
def chi (a b c : Vec 8) : Vec 8 := ternarylogic a b c 0xD2

/-! ### The round -/

/-- `Baeiou ... Saeiou` (c:318). -/
structure Planes where
  (b g k m s : Vec 8)

/-- `KeccakP1600RoundConstants` (c:290-314). -/
def roundConstants : List Lane := [
  0x0000000000000001, 0x0000000000008082, 0x800000000000808a, 0x8000000080008000,
  0x000000000000808b, 0x0000000080000001, 0x8000000080008081, 0x8000000000008009,
  0x000000000000008a, 0x0000000000000088, 0x0000000080008009, 0x000000008000000a,
  0x000000008000808b, 0x800000000000008b, 0x8000000000008089, 0x8000000000008003,
  0x8000000000008002, 0x8000000000000080, 0x000000000000800a, 0x800000008000000a,
  0x8000000080008081, 0x8000000000008080, 0x0000000080000001, 0x8000000080008008]

/-- `moveThetaPrev` (c:319). -/
def moveThetaPrev : Vec 8 := setr [4, 0, 1, 2, 3, 5, 6, 7]

/-- `moveThetaNext` (c:320). -/
def moveThetaNext : Vec 8 := setr [1, 2, 3, 4, 0, 5, 6, 7]

/-- `rhoB` (c:321). -/
def rhoB : Vec 8 := setr [0, 1, 62, 28, 27, 0, 0, 0]

/-- `rhoG` (c:322). -/
def rhoG : Vec 8 := setr [36, 44, 6, 55, 20, 0, 0, 0]

/-- `rhoK` (c:323). -/
def rhoK : Vec 8 := setr [3, 10, 43, 25, 39, 0, 0, 0]

/-- `rhoM` (c:324). -/
def rhoM : Vec 8 := setr [41, 45, 15, 21, 8, 0, 0, 0]

/-- `rhoS` (c:325). -/
def rhoS : Vec 8 := setr [18, 2, 61, 56, 14, 0, 0, 0]

/-- `pi1B` (c:326). -/
def pi1B : Vec 8 := setr [0, 3, 1, 4, 2, 5, 6, 7]

/-- `pi1G` (c:327). -/
def pi1G : Vec 8 := setr [1, 4, 2, 0, 3, 5, 6, 7]

/-- `pi1K` (c:328). -/
def pi1K : Vec 8 := setr [2, 0, 3, 1, 4, 5, 6, 7]

/-- `pi1M` (c:329). -/
def pi1M : Vec 8 := setr [3, 1, 4, 2, 0, 5, 6, 7]

/-- `pi1S` (c:330). -/
def pi1S : Vec 8 := setr [4, 2, 0, 3, 1, 5, 6, 7]

/-- `pi2S1` (c:331). -/
def pi2S1 : Vec 8 := setr [0, 1, 2, 3, 4, 5, 0+8, 2+8]

/-- `pi2S2` (c:332). -/
def pi2S2 : Vec 8 := setr [0, 1, 2, 3, 4, 5, 1+8, 3+8]

/-- `pi2BG` (c:333). -/
def pi2BG : Vec 8 := setr [0, 1, 0+8, 1+8, 6, 5, 6, 7]

/-- `pi2KM` (c:334). -/
def pi2KM : Vec 8 := setr [2, 3, 2+8, 3+8, 7, 5, 6, 7]

/-- `pi2S3` (c:335). -/
def pi2S3 : Vec 8 := setr [4, 5, 4+8, 5+8, 4, 5, 6, 7]

/-- The part "Theta" of `KeccakP_Round` (c:353-361). -/
def theta (p : Planes) : Planes :=
  let b0 := xor5 p.b p.g p.k p.m p.s
  let b1 := permutexvar moveThetaPrev b0
  let b0 := permutexvar moveThetaNext b0
  let b0 := roti b0 1
  ⟨xor3 p.b b0 b1, xor3 p.g b0 b1, xor3 p.k b0 b1, xor3 p.m b0 b1, xor3 p.s b0 b1⟩

/-- The part "Rho" (c:363-367). -/
def rho (p : Planes) : Planes := ⟨rolv p.b rhoB, rolv p.g rhoG, rolv p.k rhoK, rolv p.m rhoM, rolv p.s rhoS⟩

/-- The parts "Pi 1" and "Chi" (c:369-379). -/
def pi1Chi (p : Planes) : Planes :=
  let b0 := permutexvar pi1B p.b
  let b1 := permutexvar pi1G p.g
  let b2 := permutexvar pi1K p.k
  let b3 := permutexvar pi1M p.m
  let b4 := permutexvar pi1S p.s
  ⟨chi b0 b1 b2, chi b1 b2 b3, chi b2 b3 b4, chi b3 b4 b0, chi b4 b0 b1⟩

/-- The part "Iota" (c:381): `LOAD_Lane` loads lane 0 and clears the others. -/
def iota (rc : Lane) (p : Planes) : Planes := { p with b := xor p.b fun l => if l.val = 0 then rc else 0 }

/-- The part "Pi 2" (c:383-394). -/
def pi2 (p : Planes) : Planes :=
  let b0 := unpacklo p.b p.g
  let b1 := unpacklo p.k p.m
  let b0 := permutex2var b0 pi2S1 p.s
  let b2 := unpackhi p.b p.g
  let b3 := unpackhi p.k p.m
  let b2 := permutex2var b2 pi2S2 p.s
  let B := permutex2var b0 pi2BG b1
  let G := permutex2var b2 pi2BG b3
  let K := permutex2var b0 pi2KM b1
  let M := permutex2var b2 pi2KM b3
  let b0 := permutex2var b0 pi2S3 b1
  let S := maskBlend 0x10 b0 p.s
  ⟨B, G, K, M, S⟩

/-- `KeccakP_Round(i)` (c:351-394); reading outside of the table of constants is undefined. -/
def round (i : Nat) (p : Planes) : Option Planes := do
  let rc ← roundConstants[i]?
  some (pi2 (iota rc (pi1Chi (rho (theta p)))))

/-- `KeccakP_Round(i); KeccakP_Round(i+1); ...`, `n` of them. -/
def roundsFrom (i n : Nat) (p : Planes) : Option Planes := (List.range' i n).foldlM (fun p i => round i p) p

/-- `do { ... } while( (i += n) < 24 )` around `n` rounds (c:441-449, 452-460, 479-493). -/
def doWhile (n : Nat) : Nat → Nat → Planes → Option Planes
  | 0, _, _ => none
  | fuel + 1, i, p => do
    let p ← roundsFrom i n p
    if i + n < 24 then doWhile n fuel (i + n) p else some p

/-- `FullUnrolling`, or the value of `Unrolling` (c:396, 438, 462). -/
inductive Unrolling
  | full | u6 | u12
  deriving DecidableEq

/-- `rounds12` (c:398-410, 440-449, 464-476). -/
def rounds12 : Unrolling → Planes → Option Planes
  | .full, p => roundsFrom 12 12 p
  | .u6, p => doWhile 6 25 12 p
  | .u12, p => roundsFrom 12 12 p

/-- `rounds24` (c:412-436, 451-460, 478-493). -/
def rounds24 : Unrolling → Planes → Option Planes
  | .full, p => roundsFrom 0 24 p
  | .u6, p => doWhile 6 25 0 p
  | .u12, p => doWhile 12 25 0 p

/-- `copyFromState` (c:337-342). -/
def copyFromState (st : Bytes) : Option Planes := do
  let b ← maskzLoad 0x1F st (8 * 0)
  let g ← maskzLoad 0x1F st (8 * 5)
  let k ← maskzLoad 0x1F st (8 * 10)
  let m ← maskzLoad 0x1F st (8 * 15)
  let s ← maskzLoad 0x1F st (8 * 20)
  some ⟨b, g, k, m, s⟩

/-- `copyToState` (c:344-349). -/
def copyToState (st : Bytes) (p : Planes) : Option Bytes := do
  let st ← maskStore st (8 * 0) 0x1F p.b
  let st ← maskStore st (8 * 5) 0x1F p.g
  let st ← maskStore st (8 * 10) 0x1F p.k
  let st ← maskStore st (8 * 15) 0x1F p.m
  maskStore st (8 * 20) 0x1F p.s

/-- `for (; i < 24; i+= 4)` around four rounds (c:515-520). -/
def fourLoop : Nat → Nat → Planes → Option Planes
  | 0, _, _ => none
  | fuel + 1, i, p =>
    if i < 24 then do
      let p ← roundsFrom i 4 p
      fourLoop fuel (i + 4) p
    else some p

/-- `24 - nrounds` in `unsigned int` arithmetic. -/
def first (nrounds : Nat) : Nat := (2 ^ 32 + 24 - nrounds) % 2 ^ 32

/-- The first `if` of `KeccakP1600_Permute_Nrounds` (c:506-509): the planes and the new `nrounds`. -/
def oddRound (nrounds : Nat) (p : Planes) : Option (Planes × Nat) :=
  if nrounds % 2 ≠ 0 then do
    let p ← round (first nrounds) p
    some (p, nrounds - 1)
  else some (p, nrounds)

/-- The second `if` (c:510-514). -/
def twoRounds (nrounds : Nat) (p : Planes) : Option (Planes × Nat) :=
  if nrounds / 2 % 2 ≠ 0 then do
    let p ← round (first nrounds) p
    let p ← round ((2 ^ 32 + 24 + 1 - nrounds) % 2 ^ 32) p
    some (p, nrounds - 2)
  else some (p, nrounds)

/-- `KeccakP1600_Permute_Nrounds` (c:499-522). -/
def permuteNrounds (st : Bytes) (nrounds : Nat) : Option Bytes := do
  let p ← copyFromState st
  let (p, nrounds) ← oddRound nrounds p
  let (p, nrounds) ← twoRounds nrounds p
  let p ← fourLoop 25 (first nrounds) p
  copyToState st p

/-- `KeccakP1600_Permute_12rounds` (c:526-537). -/
def permute12 (unr : Unrolling) (st : Bytes) : Option Bytes := do
  let p ← copyFromState st
  let p ← rounds12 unr p
  copyToState st p

/-- `KeccakP1600_Permute_24rounds` (c:541-552). -/
def permute24 (unr : Unrolling) (st : Bytes) : Option Bytes := do
  let p ← copyFromState st
  let p ← rounds24 unr p
  copyToState st p

/-! ### Byte access -/

/-- `KeccakP1600_Initialize` (c:230-233). -/
def initState : Bytes := List.replicate 200 0

/-- `stateAsBytes[offset] ^= byte` (h:40, c:243, 249). -/
def addByte (st : Bytes) (b : Byte) (offset : Nat) : Option Bytes := do
  let a ← st[offset]?
  some (st.set offset (a ^^^ b))

/-- `for( ; ((offset % 8) != 0) && (length != 0); ++offset, --length) stateAsBytes[offset] ^= *(data++);` (c:242-243): the state, `data`,
`offset` and `length`. -/
def addHead : Nat → Bytes → Bytes → Nat → Option (Bytes × Bytes × Nat × Nat)
  | 0, st, data, offset => some (st, data, offset, 0)
  | length + 1, st, data, offset =>
    if offset % 8 ≠ 0 then do
      let d ← data[0]?
      let st ← addByte st d offset
      addHead length st (data.drop 1) (offset + 1)
    else some (st, data, offset, length + 1)

/-- `for ( ; length >= n; stateAsLanes += n/8, data += n, length -= n) STORE_Lanes(stateAsLanes, mask, XOR(LOAD_Lanes(mask, stateAsLanes),
LOAD_Lanes(mask, data)))` (c:244-247). -/
def addLanesLoop (mask n : Nat) : Nat → Bytes → Bytes → Nat → Nat → Option (Bytes × Bytes × Nat × Nat)
  | 0, _, _, _, _ => none
  | fuel + 1, st, data, offset, length =>
    if length ≥ n then do
      let v ← maskzLoad mask st offset
      let w ← maskzLoad mask data 0
      let st ← maskStore st offset mask (xor v w)
      addLanesLoop mask n fuel st (data.drop n) (offset + n) (length - n)
    else some (st, data, offset, length)

/-- `for ( ; length != 0; --length) *(stateAsBytes++) ^= *(data++);` (c:248-249). -/
def addTail : Nat → Bytes → Bytes → Nat → Option Bytes
  | 0, st, _, _ => some st
  | length + 1, st, data, offset => do
    let d ← data[0]?
    let st ← addByte st d offset
    addTail length st (data.drop 1) (offset + 1)

/-- `KeccakP1600_AddBytes` (c:237-250). -/
def addBytes (st data : Bytes) (offset length : Nat) : Option Bytes := do
  let (st, data, offset, length) ← addHead length st data offset
  let (st, data, offset, length) ← addLanesLoop 0xFF (8 * 8) (length + 1) st data offset length
  let (st, data, offset, length) ← addLanesLoop 0x01 8 (length + 1) st data offset length
  addTail length st data offset

/-- `KeccakP1600_OverwriteBytes` (c:254-257). -/
def overwriteBytes (st data : Bytes) (offset length : Nat) : Option Bytes := do
  let d ← SnP.readBuf data length
  SnP.overwriteBytes st d offset

/-- `KeccakP1600_OverwriteWithZeroes` (c:261-264). -/
def overwriteWithZeroes (st : Bytes) (byteCount : Nat) : Option Bytes := SnP.overwriteBytes st (List.replicate byteCount 0) 0

/-- `KeccakP1600_ExtractBytes` (c:268-271). -/
def extractBytes (st : Bytes) (offset length : Nat) : Option Bytes := SnP.readBuf (st.drop offset) length

/-- The first loop of `KeccakP1600_ExtractAndAddBytes` (c:280-281): the bytes written, `input`, `offset` and `length`. -/
def outHead (st : Bytes) : Nat → Bytes → Bytes → Nat → Option (Bytes × Bytes × Nat × Nat)
  | 0, out, input, offset => some (out, input, offset, 0)
  | length + 1, out, input, offset =>
    if offset % 8 ≠ 0 then do
      let d ← input[0]?
      let a ← st[offset]?
      outHead st length (out ++ [a ^^^ d]) (input.drop 1) (offset + 1)
    else some (out, input, offset, length + 1)

/-- The two loops on lanes of `KeccakP1600_ExtractAndAddBytes` (c:282-285). -/
def outLanesLoop (st : Bytes) (mask n : Nat) : Nat → Bytes → Bytes → Nat → Nat → Option (Bytes × Bytes × Nat × Nat)
  | 0, _, _, _, _ => none
  | fuel + 1, out, input, offset, length =>
    if length ≥ n then do
      let v ← maskzLoad mask st offset
      let w ← maskzLoad mask input 0
      outLanesLoop st mask n fuel (out ++ maskBytes mask (xor v w)) (input.drop n) (offset + n) (length - n)
    else some (out, input, offset, length)

/-- The last loop of `KeccakP1600_ExtractAndAddBytes` (c:286-287). -/
def outTail (st : Bytes) : Nat → Bytes → Bytes → Nat → Option Bytes
  | 0, out, _, _ => some out
  | length + 1, out, input, offset => do
    let d ← input[0]?
    let a ← st[offset]?
    outTail st length (out ++ [a ^^^ d]) (input.drop 1) (offset + 1)

/-- `KeccakP1600_ExtractAndAddBytes` (c:275-288). -/
def extractAndAddBytes (st input : Bytes) (offset length : Nat) : Option Bytes := do
  let (out, input, offset, length) ← outHead st length [] input offset
  let (out, input, offset, length) ← outLanesLoop st 0xFF (8 * 8) (length + 1) out input offset length
  let (out, input, offset, length) ← outLanesLoop st 0x01 8 (length + 1) out input offset length
  outTail st length out input offset

/-- The byte access functions (c:230-288, h:40). -/
def access : Access Bytes where
  init := initState
  addByte := addByte
  addBytes := addBytes
  overwriteBytes := overwriteBytes
  overwriteWithZeroes := overwriteWithZeroes
  extractBytes := extractBytes
  extractAndAddBytes := extractAndAddBytes

/-! ### Fast absorption -/

/-- The addition of 21 lanes of input (c:568-572, 604-608). -/
def addInput21 (p : Planes) (data : Bytes) (pos : Nat) : Option Planes := do
  let b ← maskzLoad 0x1F data (pos + 8 * 0)
  let g ← maskzLoad 0x1F data (pos + 8 * 5)
  let k ← maskzLoad 0x1F data (pos + 8 * 10)
  let m ← maskzLoad 0x1F data (pos + 8 * 15)
  let s ← maskzLoad 0x01 data (pos + 8 * 20)
  some ⟨xor p.b b, xor p.g g, xor p.k k, xor p.m m, xor p.s s⟩

/-- `while(dataByteLen >= 21*8)` (c:567-576, 603-612): the planes and `dataByteLen`; `pos` is the position of `inDataAsLanes` in `data`. -/
def fastLoop21 (rounds : Planes → Option Planes) (data : Bytes) : Nat → Planes → Nat → Nat → Option (Planes × Nat)
  | 0, _, _, _ => none
  | fuel + 1, p, pos, dataByteLen =>
    if dataByteLen ≥ 21 * 8 then do
      let p ← addInput21 p data pos
      let p ← rounds p
      fastLoop21 rounds data fuel p (pos + 21 * 8) (dataByteLen - 21 * 8)
    else some (p, dataByteLen)

/-- `while(dataByteLen >= laneCount*8)` (c:580-585, 616-621), `blk` being `laneCount*8`. -/
def fastLoop (permute : Bytes → Option Bytes) (blk : Nat) : Nat → Bytes → Bytes → Nat → Option (Bytes × Nat)
  | 0, _, _, _ => none
  | fuel + 1, st, data, dataByteLen =>
    if dataByteLen ≥ blk then do
      let st ← addBytes st data 0 blk
      let st ← permute st
      fastLoop permute blk fuel st (data.drop blk) (dataByteLen - blk)
    else some (st, dataByteLen)

/-- `KeccakF1600_FastLoop_Absorb` and `KeccakP1600_12rounds_FastLoop_Absorb` (c:554-588, 590-624), which differ in the rounds only.  Running
out of fuel means that the loop does not end, which happens for `laneCount*8 = 0`. -/
def fastLoopAbsorb (rounds : Planes → Option Planes) (permute : Bytes → Option Bytes) (st : Bytes) (laneCount : Nat) (data : Bytes) :
    Option (Bytes × Nat) :=
  if laneCount = 21 then do
    let p ← copyFromState st
    let (p, dataByteLen) ← fastLoop21 rounds data (data.length + 1) p 0 data.length
    let st ← copyToState st p
    some (st, data.length - dataByteLen)
  else do
    let (st, dataByteLen) ← fastLoop permute (laneCount * 8 % 2 ^ 32) (data.length + 1) st data data.length
    some (st, data.length - dataByteLen)

/-- `KeccakF1600_FastLoop_Absorb` (c:554-588). -/
def fastLoopAbsorb24 (unr : Unrolling) (st : Bytes) (laneCount : Nat) (data : Bytes) : Option (Bytes × Nat) :=
  fastLoopAbsorb (rounds24 unr) (permute24 unr) st laneCount data

/-- `KeccakP1600_12rounds_FastLoop_Absorb` (c:590-624). -/
def fastLoopAbsorb12 (unr : Unrolling) (st : Bytes) (laneCount : Nat) (data : Bytes) : Option (Bytes × Nat) :=
  fastLoopAbsorb (rounds12 unr) (permute12 unr) st laneCount data

end Plane512
