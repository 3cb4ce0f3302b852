import Verif.Model.KeccakP1600Opt

/-!
# Byte access to the state of Keccak-p[1600]

Models the macros of `lib/low/common/SnP-Relaned.h`, which build `AddBytes`, `OverwriteBytes`, `ExtractBytes`
and `ExtractAndAddBytes` out of functions working on whole lanes and on bytes within one lane, and these
functions in the reference, compact and optimised 64-bit implementations (little-endian code paths; the
big-endian ones compute the same map by explicit shifts).

A pointer to data is the list of bytes that can be read through it; reading or writing out of bounds, and shifting a
64-bit word by 64 or more, is undefined: `none`.  Output functions return the bytes written, from the output
pointer on.
-/

/-- The functions `SnP_AddLanes` etc. that are arguments of the macros of SnP-Relaned.h, on states of type `σ`. -/
structure LaneOps (σ : Type) where
  /-- (state, data, laneCount) -/
  addLanes : σ → Bytes → Nat → Option σ
  /-- (state, lanePosition, data, offset, length) -/
  addBytesInLane : σ → Nat → Bytes → Nat → Nat → Option σ
  /-- (state, data, laneCount) -/
  overwriteLanes : σ → Bytes → Nat → Option σ
  /-- (state, lanePosition, data, offset, length) -/
  overwriteBytesInLane : σ → Nat → Bytes → Nat → Nat → Option σ
  /-- (state, laneCount) -/
  extractLanes : σ → Nat → Option Bytes
  /-- (state, lanePosition, offset, length) -/
  extractBytesInLane : σ → Nat → Nat → Nat → Option Bytes
  /-- (state, input, laneCount) -/
  extractAndAddLanes : σ → Bytes → Nat → Option Bytes
  /-- (state, lanePosition, input, offset, length) -/
  extractAndAddBytesInLane : σ → Nat → Bytes → Nat → Nat → Option Bytes

/-- The state access functions of an implementation (`SnP_Initialize`, ..., `SnP_ExtractAndAddBytes`, see
doc/SnP-documentation.h:33-155), on states of type `σ`; a buffer is the list of the bytes readable through the
pointer, and the output functions return the bytes they write. -/
structure Access (σ : Type) where
  init : σ
  /-- (state, byte, offset) -/
  addByte : σ → Byte → Nat → Option σ
  /-- (state, data, offset, length) -/
  addBytes : σ → Bytes → Nat → Nat → Option σ
  /-- (state, data, offset, length) -/
  overwriteBytes : σ → Bytes → Nat → Nat → Option σ
  /-- (state, byteCount) -/
  overwriteWithZeroes : σ → Nat → Option σ
  /-- (state, offset, length) -/
  extractBytes : σ → Nat → Nat → Option Bytes
  /-- (state, input, offset, length) -/
  extractAndAddBytes : σ → Bytes → Nat → Nat → Option Bytes

namespace Relaned

variable {σ : Type}

/-- The `while(_sizeLeft > 0)` loop of `SnP_AddBytes` and `SnP_OverwriteBytes` (SnP-Relaned.h:42-51, 71-80),
`L` being `SnP_laneLengthInBytes` and `op` the function on bytes in a lane.  Running out of fuel means that
the loop does not terminate. -/
def writeLoop (L : Nat) (op : σ → Nat → Bytes → Nat → Nat → Option σ) :
    Nat → σ → Nat → Nat → Bytes → Nat → Option σ
  | 0, _, _, _, _, _ => none
  | fuel + 1, s, lanePosition, offsetInLane, curData, sizeLeft =>
    if sizeLeft > 0 then do
      let bytesInLane := if L - offsetInLane > sizeLeft then sizeLeft else L - offsetInLane
      let s ← op s lanePosition curData offsetInLane bytesInLane
      writeLoop L op fuel s (lanePosition + 1) 0 (curData.drop bytesInLane) (sizeLeft - bytesInLane)
    else some s

/-- `SnP_AddBytes` and `SnP_OverwriteBytes` (SnP-Relaned.h:26-53, 55-82): the two macros differ only in the
functions they call. -/
def writeBytes (L : Nat) (lanes : σ → Bytes → Nat → Option σ) (inLane : σ → Nat → Bytes → Nat → Nat → Option σ)
    (s : σ) (data : Bytes) (offset length : Nat) : Option σ :=
  if offset = 0 then do
    let s ← lanes s data (length / L)
    if length % L > 0 then inLane s (length / L) (data.drop (length / L * L)) 0 (length % L) else some s
  else writeLoop L inLane (length + 1) s (offset / L) (offset % L) data length

/-- The loop of `SnP_ExtractBytes` (SnP-Relaned.h:100-109): the bytes written. -/
def readLoop (L : Nat) (op : Nat → Nat → Nat → Option Bytes) : Nat → Nat → Nat → Nat → Option Bytes
  | 0, _, _, _ => none
  | fuel + 1, lanePosition, offsetInLane, sizeLeft =>
    if sizeLeft > 0 then do
      let bytesInLane := if L - offsetInLane > sizeLeft then sizeLeft else L - offsetInLane
      let o ← op lanePosition offsetInLane bytesInLane
      let os ← readLoop L op fuel (lanePosition + 1) 0 (sizeLeft - bytesInLane)
      some (o ++ os)
    else some []

/-- `SnP_ExtractBytes` (SnP-Relaned.h:84-111). -/
def extractBytes (L : Nat) (ops : LaneOps σ) (s : σ) (offset length : Nat) : Option Bytes :=
  if offset = 0 then do
    let o ← ops.extractLanes s (length / L)
    if length % L > 0 then do
      let os ← ops.extractBytesInLane s (length / L) 0 (length % L)
      some (o ++ os)
    else some o
  else readLoop L (ops.extractBytesInLane s) (length + 1) (offset / L) (offset % L) length

/-- The loop of `SnP_ExtractAndAddBytes` (SnP-Relaned.h:131-141). -/
def xorLoop (L : Nat) (op : Nat → Bytes → Nat → Nat → Option Bytes) : Nat → Nat → Nat → Bytes → Nat → Option Bytes
  | 0, _, _, _, _ => none
  | fuel + 1, lanePosition, offsetInLane, curInput, sizeLeft =>
    if sizeLeft > 0 then do
      let bytesInLane := if L - offsetInLane > sizeLeft then sizeLeft else L - offsetInLane
      let o ← op lanePosition curInput offsetInLane bytesInLane
      let os ← xorLoop L op fuel (lanePosition + 1) 0 (curInput.drop bytesInLane) (sizeLeft - bytesInLane)
      some (o ++ os)
    else some []

/-- `SnP_ExtractAndAddBytes` (SnP-Relaned.h:113-143). -/
def extractAndAddBytes (L : Nat) (ops : LaneOps σ) (s : σ) (input : Bytes) (offset length : Nat) : Option Bytes :=
  if offset = 0 then do
    let o ← ops.extractAndAddLanes s input (length / L)
    if length % L > 0 then do
      let os ← ops.extractAndAddBytesInLane s (length / L) (input.drop (length / L * L)) 0 (length % L)
      some (o ++ os)
    else some o
  else xorLoop L (ops.extractAndAddBytesInLane s) (length + 1) (offset / L) (offset % L) input length

/-- `SnP_AddBytes` (SnP-Relaned.h:26-53). -/
def addBytes (L : Nat) (ops : LaneOps σ) (s : σ) (data : Bytes) (offset length : Nat) : Option σ :=
  writeBytes L ops.addLanes ops.addBytesInLane s data offset length

/-- `SnP_OverwriteBytes` (SnP-Relaned.h:55-82). -/
def overwriteBytes (L : Nat) (ops : LaneOps σ) (s : σ) (data : Bytes) (offset length : Nat) : Option σ :=
  writeBytes L ops.overwriteLanes ops.overwriteBytesInLane s data offset length

end Relaned

namespace KeccakP1600

/-- `A[i]`, with a bounds check. -/
def getLane (A : Lanes) (i : Nat) : Option Lane := if h : i < 25 then some (A ⟨i, h⟩) else none

/-- `A[i] = w`, with a bounds check. -/
def setLane (A : Lanes) (i : Nat) (w : Lane) : Option Lanes := if h : i < 25 then some (put A ⟨i, h⟩ w) else none

/-- `((uint64_t*)data)[i]` on a little-endian platform. -/
def readLane (data : Bytes) (i : Nat) : Option Lane := do
  let b ← SnP.readBuf (data.drop (i * 8)) 8
  some (wordOfBytes b)

/-- Writing bytes into the memory of the state on a little-endian platform: `memcpy((unsigned char*)state+offset,
data, data.length)`. -/
def memWrite (A : Lanes) (offset : Nat) (data : Bytes) : Option Lanes :=
  if offset + data.length ≤ 200 then some (lanesOfBytes (Bytes.setAt (bytesOfLanes A) offset data)) else none

/-- `for(i=0; i<data.length; i++) ((unsigned char*)state)[offset+i] ^= data[i]` on a little-endian platform. -/
def memXor (A : Lanes) (offset : Nat) (data : Bytes) : Option Lanes :=
  if offset + data.length ≤ 200 then some (lanesOfBytes (Bytes.xorAt (bytesOfLanes A) offset data)) else none

/-- `memcpy(data, (unsigned char*)state+offset, length)` on a little-endian platform. -/
def memRead (A : Lanes) (offset length : Nat) : Option Bytes :=
  if offset + length ≤ 200 then some (Bytes.slice (bytesOfLanes A) offset length) else none

/-- `for(i=a; i<a+n; i++) body`, with a body that may be undefined. -/
def loopM {σ : Type} (body : Nat → σ → Option σ) : (a n : Nat) → σ → Option σ
  | _, 0, s => some s
  | a, n + 1, s => do
    let s ← body a s
    loopM body (a + 1) n s

namespace Opt64

/-- `(lanePosition == 1) || ... || (lanePosition == 20)`, under `KeccakP1600_useLaneComplementing`
(e.g. KeccakP-1600-opt64.c:204). -/
def isComp (k : Cfg) (lanePosition : Nat) : Bool :=
  k.lc && (lanePosition == 1 || lanePosition == 2 || lanePosition == 8 || lanePosition == 12 ||
    lanePosition == 17 || lanePosition == 20)

/-- `KeccakP1600_Initialize` (KeccakP-1600-opt64.c:85-96). -/
def initState (k : Cfg) : Lanes :=
  let A : Lanes := fun _ => 0
  if k.lc then
    put (put (put (put (put (put A 1 (~~~ 0)) 2 (~~~ 0)) 8 (~~~ 0)) 12 (~~~ 0)) 17 (~~~ 0)) 20 (~~~ 0)
  else A

/-- `KeccakP1600_AddByte`, little endian (plain-64bits/KeccakP-1600-SnP.h:43-44). -/
def addByte (A : Lanes) (b : Byte) (offset : Nat) : Option Lanes := memXor A offset [b]

/-- `KeccakP1600_AddBytesInLane` (KeccakP-1600-opt64.c:100-120). -/
def addBytesInLane (A : Lanes) (lanePosition : Nat) (data : Bytes) (offset length : Nat) : Option Lanes :=
  if length = 0 then some A
  else do
    let d ← SnP.readBuf data length
    let lane ← if length = 1 then some ((d.getD 0 0).setWidth 64)
      else if length ≤ 8 then some (wordOfBytes d) else none
    let lane ← if offset * 8 < 64 then some (lane <<< (offset * 8)) else none
    let a ← getLane A lanePosition
    setLane A lanePosition (a ^^^ lane)

/-- `state->A[i+j] ^= ((uint64_t*)data)[i+j]` for `j = 0 .. n-1`. -/
def xorLanes (data : Bytes) (i n : Nat) (A : Lanes) : Option Lanes :=
  loopM (fun j A => do
    let w ← readLane data j
    let a ← getLane A j
    setLane A j (a ^^^ w)) i n A

/-- `for( ; (i+n)<=laneCount; i+=n)` around `n` unrolled lane additions (KeccakP-1600-opt64.c:139-160). -/
def addLanesLoop (data : Bytes) (laneCount n : Nat) : Nat → Nat → Lanes → Option (Nat × Lanes)
  | 0, _, _ => none
  | fuel + 1, i, A =>
    if i + n ≤ laneCount then do
      let A ← xorLanes data i n A
      addLanesLoop data laneCount n fuel (i + n) A
    else some (i, A)

/-- `KeccakP1600_AddLanes` (KeccakP-1600-opt64.c:124-178), without `NO_MISALIGNED_ACCESSES`. -/
def addLanes (A : Lanes) (data : Bytes) (laneCount : Nat) : Option Lanes := do
  let (i, A) ← addLanesLoop data laneCount 8 (laneCount + 1) 0 A
  let (i, A) ← addLanesLoop data laneCount 4 (laneCount + 1) i A
  let (i, A) ← addLanesLoop data laneCount 2 (laneCount + 1) i A
  if i < laneCount then xorLanes data i 1 A else some A

/-- `KeccakP1600_OverwriteBytesInLane` (KeccakP-1600-opt64.c:200-228). -/
def overwriteBytesInLane (k : Cfg) (A : Lanes) (lanePosition : Nat) (data : Bytes) (offset length : Nat) :
    Option Lanes := do
  let d ← SnP.readBuf data length
  if isComp k lanePosition then memWrite A (lanePosition * 8 + offset) (d.map fun b => ~~~ b)
  else memWrite A (lanePosition * 8 + offset) d

/-- `KeccakP1600_OverwriteLanes` (KeccakP-1600-opt64.c:232-266). -/
def overwriteLanes (k : Cfg) (A : Lanes) (data : Bytes) (laneCount : Nat) : Option Lanes :=
  if k.lc then
    loopM (fun i A => do
      let w ← readLane data i
      setLane A i (if isComp k i then ~~~ w else w)) 0 laneCount A
  else do
    let d ← SnP.readBuf data (laneCount * 8)
    memWrite A 0 d

/-- `KeccakP1600_OverwriteWithZeroes` (KeccakP-1600-opt64.c:277-324); `~0` is the `int` -1, which converts to
the word with all bits set. -/
def overwriteWithZeroes (k : Cfg) (A : Lanes) (byteCount : Nat) : Option Lanes :=
  if k.lc then do
    let A ← loopM (fun i A => setLane A i (if isComp k i then ~~~ 0 else 0)) 0 (byteCount / 8) A
    if byteCount % 8 ≠ 0 then
      memWrite A (byteCount / 8 * 8) (List.replicate (byteCount % 8) (if isComp k (byteCount / 8) then 0xFF else 0))
    else some A
  else memWrite A 0 (List.replicate byteCount 0)

/-- `KeccakP1600_ExtractBytesInLane` (KeccakP-1600-opt64.c:372-393). -/
def extractBytesInLane (k : Cfg) (A : Lanes) (lanePosition offset length : Nat) : Option Bytes := do
  let lane ← getLane A lanePosition
  let lane := if isComp k lanePosition then ~~~ lane else lane
  if offset + length ≤ 8 then some (Bytes.slice (bytesOfWord lane) offset length) else none

/-- `((uint64_t*)data)[i] = ~((uint64_t*)data)[i]` in an output buffer. -/
def notLane (data : Bytes) (i : Nat) : Option Bytes := do
  let w ← readLane data i
  some (Bytes.setAt data (i * 8) (bytesOfWord (~~~ w)))

/-- The complementation of the output in `KeccakP1600_ExtractLanes` and `KeccakP1600_ExtractAndAddLanes`
(KeccakP-1600-opt64.c:417-436, 492-511). -/
def complementOutput (k : Cfg) (laneCount : Nat) (data : Bytes) : Option Bytes :=
  if k.lc then
    if laneCount > 1 then do
      let data ← notLane data 1
      if laneCount > 2 then do
        let data ← notLane data 2
        if laneCount > 8 then do
          let data ← notLane data 8
          if laneCount > 12 then do
            let data ← notLane data 12
            if laneCount > 17 then do
              let data ← notLane data 17
              if laneCount > 20 then notLane data 20 else some data
            else some data
          else some data
        else some data
      else some data
    else some data
  else some data

/-- `KeccakP1600_ExtractLanes` (KeccakP-1600-opt64.c:407-437). -/
def extractLanes (k : Cfg) (A : Lanes) (laneCount : Nat) : Option Bytes := do
  let d ← memRead A 0 (laneCount * 8)
  complementOutput k laneCount d

/-- `KeccakP1600_ExtractAndAddBytesInLane` (KeccakP-1600-opt64.c:448-471). -/
def extractAndAddBytesInLane (k : Cfg) (A : Lanes) (lanePosition : Nat) (input : Bytes) (offset length : Nat) :
    Option Bytes := do
  let lane ← getLane A lanePosition
  let lane := if isComp k lanePosition then ~~~ lane else lane
  let d ← SnP.readBuf input length
  if offset + length ≤ 8 then some (Bytes.xor d (Bytes.slice (bytesOfWord lane) offset length)) else none

/-- The loop of `KeccakP1600_ExtractAndAddLanes` (KeccakP-1600-opt64.c:483-491), little endian. -/
def xorOut (A : Lanes) (input : Bytes) : Nat → Nat → Option Bytes
  | _, 0 => some []
  | i, n + 1 => do
    let w ← readLane input i
    let a ← getLane A i
    let os ← xorOut A input (i + 1) n
    some (bytesOfWord (w ^^^ a) ++ os)

/-- `KeccakP1600_ExtractAndAddLanes` (KeccakP-1600-opt64.c:475-512). -/
def extractAndAddLanes (k : Cfg) (A : Lanes) (input : Bytes) (laneCount : Nat) : Option Bytes := do
  let o ← xorOut A input 0 laneCount
  complementOutput k laneCount o

/-- The functions given to the macros of SnP-Relaned.h (KeccakP-1600-opt64.c:193-196, 270-273, 441-444,
516-519). -/
def ops (k : Cfg) : LaneOps Lanes where
  addLanes := addLanes
  addBytesInLane := addBytesInLane
  overwriteLanes := overwriteLanes k
  overwriteBytesInLane := overwriteBytesInLane k
  extractLanes := extractLanes k
  extractBytesInLane := extractBytesInLane k
  extractAndAddLanes := extractAndAddLanes k
  extractAndAddBytesInLane := extractAndAddBytesInLane k

/-- The byte access functions (KeccakP-1600-opt64.c:85-96, 193-196, 270-324, 441-444, 516-519). -/
def access (k : Cfg) : Access Lanes where
  init := initState k
  addByte := addByte
  addBytes := Relaned.addBytes 8 (ops k)
  overwriteBytes := Relaned.overwriteBytes 8 (ops k)
  overwriteWithZeroes := overwriteWithZeroes k
  extractBytes := Relaned.extractBytes 8 (ops k)
  extractAndAddBytes := Relaned.extractAndAddBytes 8 (ops k)

end Opt64

namespace Compact

/-- `KeccakP1600_Initialize` (KeccakP-1600-compact64.c:104-120). -/
def initState : Lanes := fun _ => 0

/-- `KeccakP1600_AddByte` (KeccakP-1600-compact64.c:168-173). -/
def addByte (A : Lanes) (b : Byte) (offset : Nat) : Option Lanes := do
  let lane := b.setWidth 64 <<< (offset % 8 * 8)
  let a ← getLane A (offset / 8)
  setLane A (offset / 8) (a ^^^ lane)

/-- `KeccakP1600_AddBytesInLane` (KeccakP-1600-compact64.c:124-137). -/
def addBytesInLane (A : Lanes) (lanePosition : Nat) (data : Bytes) (offset length : Nat) : Option Lanes := do
  let d ← SnP.readBuf data length
  memXor A (lanePosition * 8 + offset) d

/-- `KeccakP1600_AddLanes` (KeccakP-1600-compact64.c:141-164).  The counter `i` is an `uint_fast8_t`: with 8 bits
the loop ends for `laneCount * 8 < 256`, which holds when it stays within the state. -/
def addLanes (A : Lanes) (data : Bytes) (laneCount : Nat) : Option Lanes := do
  let d ← SnP.readBuf data (laneCount * 8)
  memXor A 0 d

/-- `KeccakP1600_OverwriteBytesInLane` (KeccakP-1600-compact64.c:184-198). -/
def overwriteBytesInLane (A : Lanes) (lanePosition : Nat) (data : Bytes) (offset length : Nat) : Option Lanes := do
  let d ← SnP.readBuf data length
  memWrite A (lanePosition * 8 + offset) d

/-- `KeccakP1600_OverwriteLanes` (KeccakP-1600-compact64.c:202-221). -/
def overwriteLanes (A : Lanes) (data : Bytes) (laneCount : Nat) : Option Lanes := do
  let d ← SnP.readBuf data (laneCount * 8)
  memWrite A 0 d

/-- `KeccakP1600_OverwriteWithZeroes` (KeccakP-1600-compact64.c:232-244). -/
def overwriteWithZeroes (A : Lanes) (byteCount : Nat) : Option Lanes :=
  memWrite A 0 (List.replicate byteCount 0)

/-- `KeccakP1600_ExtractBytesInLane` (KeccakP-1600-compact64.c:340-353). -/
def extractBytesInLane (A : Lanes) (lanePosition offset length : Nat) : Option Bytes :=
  memRead A (lanePosition * 8 + offset) length

/-- `KeccakP1600_ExtractLanes` (KeccakP-1600-compact64.c:357-371). -/
def extractLanes (A : Lanes) (laneCount : Nat) : Option Bytes := memRead A 0 (laneCount * 8)

/-- The loop of `KeccakP1600_ExtractAndAddBytesInLane` (KeccakP-1600-compact64.c:387-390): the lane is shifted
out byte by byte. -/
def shiftOut : Lane → Bytes → Bytes
  | _, [] => []
  | lane, b :: bs => (b ^^^ (lane &&& 0xFF).setWidth 8) :: shiftOut (lane >>> 8) bs

/-- `KeccakP1600_ExtractAndAddBytesInLane` (KeccakP-1600-compact64.c:382-391). -/
def extractAndAddBytesInLane (A : Lanes) (lanePosition : Nat) (input : Bytes) (offset length : Nat) :
    Option Bytes := do
  let lane ← getLane A lanePosition
  let lane ← if offset * 8 < 64 then some (lane >>> (offset * 8)) else none
  let d ← SnP.readBuf input length
  some (shiftOut lane d)

/-- `KeccakP1600_ExtractAndAddLanes` (KeccakP-1600-compact64.c:395-411). -/
def extractAndAddLanes (A : Lanes) (input : Bytes) (laneCount : Nat) : Option Bytes :=
  Opt64.xorOut A input 0 laneCount

/-- The functions given to the macros of SnP-Relaned.h (KeccakP-1600-compact64.c:177-180, 225-228, 375-378,
415-418). -/
def ops : LaneOps Lanes where
  addLanes := addLanes
  addBytesInLane := addBytesInLane
  overwriteLanes := overwriteLanes
  overwriteBytesInLane := overwriteBytesInLane
  extractLanes := extractLanes
  extractBytesInLane := extractBytesInLane
  extractAndAddLanes := extractAndAddLanes
  extractAndAddBytesInLane := extractAndAddBytesInLane

/-- The byte access functions (KeccakP-1600-compact64.c:104-120, 168-180, 225-244, 375-378, 415-418). -/
def access : Access Lanes where
  init := initState
  addByte := addByte
  addBytes := Relaned.addBytes 8 ops
  overwriteBytes := Relaned.overwriteBytes 8 ops
  overwriteWithZeroes := overwriteWithZeroes
  extractBytes := Relaned.extractBytes 8 ops
  extractAndAddBytes := Relaned.extractAndAddBytes 8 ops

end Compact

namespace Ref

/-- `KeccakP1600_AddByte` (KeccakP-1600-reference.c:153-159), on the array of 200 bytes. -/
def addByte (s : Bytes) (b : Byte) (offset : Nat) : Option Bytes := do
  let a ← s[offset]?
  some (s.set offset (a ^^^ b))

/-- `KeccakP1600_AddBytes` (KeccakP-1600-reference.c:163-173). -/
def addBytes (s data : Bytes) (offset length : Nat) : Option Bytes :=
  loopM (fun i s => do
    let d ← data[i]?
    let a ← s[offset + i]?
    some (s.set (offset + i) (a ^^^ d))) 0 length s

/-- `KeccakP1600_OverwriteBytes` (KeccakP-1600-reference.c:177-184): `memcpy`. -/
def overwriteBytes (s data : Bytes) (offset length : Nat) : Option Bytes := do
  let d ← SnP.readBuf data length
  if offset + length ≤ s.length then some (s.take offset ++ d ++ s.drop (offset + length)) else none

/-- `KeccakP1600_OverwriteWithZeroes` (KeccakP-1600-reference.c:188-194): `memset`. -/
def overwriteWithZeroes (s : Bytes) (byteCount : Nat) : Option Bytes :=
  if byteCount ≤ s.length then some (List.replicate byteCount 0 ++ s.drop byteCount) else none

/-- `KeccakP1600_ExtractBytes` (KeccakP-1600-reference.c:365-372): `memcpy`. -/
def extractBytes (s : Bytes) (offset length : Nat) : Option Bytes := SnP.readBuf (s.drop offset) length

/-- `KeccakP1600_ExtractAndAddBytes` (KeccakP-1600-reference.c:376-386). -/
def extractAndAddBytes (s input : Bytes) (offset length : Nat) : Option Bytes :=
  loopM (fun i output => do
    let d ← input[i]?
    let a ← s[offset + i]?
    some (output ++ [d ^^^ a])) 0 length []

/-- The byte access functions (KeccakP-1600-reference.c:146-194, 365-386). -/
def access : Access Bytes where
  init := List.replicate 200 0
  addByte := addByte
  addBytes := addBytes
  overwriteBytes := overwriteBytes
  overwriteWithZeroes := overwriteWithZeroes
  extractBytes := extractBytes
  extractAndAddBytes := extractAndAddBytes

end Ref

end KeccakP1600
