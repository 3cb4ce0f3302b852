import Verif.Model.Simd32

/-!
# Access to the bytes of one of `N` interleaved Xoodoo states

Models the functions of the SIMD implementations that work on one of the `N` states: `InitializeAll`, `AddByte`,
`AddBytes`, `OverwriteBytes`, `OverwriteWithZeroes`, `ExtractBytes` and `ExtractAndAddBytes` of

* `lib/low/Xoodoo-times4/SSSE3/Xoodoo-times4-SIMD128.c` (cited as `x4`; `N = 4`),
* `lib/low/Xoodoo-times8/AVX2/Xoodoo-times8-SIMD256.c` (`x8`; `N = 8`),
* `lib/low/Xoodoo-times16/AVX512/Xoodoo-times16-SIMD512.c` (`x16`; `N = 16`).

The text of these functions is the same in the three files, and in the AVX-512 files for eight and four states
(`Xoodoo-times8/AVX512/Xoodoo-times8-SIMD512.c`, `Xoodoo-times4/AVX512/Xoodoo-times4-SIMD512.c`), except for names of types, and the same as in the implementations
for Keccak-p[1600] (`Model/Interleaved.lean`) except that lanes have 4 bytes.  The state is an array of 12 registers
of `N` lanes, also accessed as an array of 32-bit lanes and of bytes; here it is the list of its bytes.  `data` is what remains of
the buffer from the pointer on, and its length is the argument `length`; the pointers `input` and `output` are to separate
buffers.
-/

namespace Interleaved32

open Xoodoo (Lane wordOfBytes bytesOfWord)
open Simd32 (loadWord storeWord)

/-- `laneIndex(instanceIndex, lanePosition)` (x4:33, x8:36, x16:247), in `unsigned int`. -/
def laneIndex (N i p : Nat) : Nat := (p * N + i) % 2 ^ 32

/-- `statesAsLanes[idx] ^= lane`. -/
def xorLane (mem : Bytes) (idx : Nat) (lane : Lane) : Option Bytes := do
  let w ← loadWord mem (4 * idx)
  storeWord mem (4 * idx) (w ^^^ lane)

/-- `memcpy((unsigned char*)&statesAsLanes[idx] + o, d, ...)`. -/
def copyTo (mem : Bytes) (idx o : Nat) (d : Bytes) : Option Bytes := SnP.overwriteBytes mem d (4 * idx + o)

/-- `uint32_t lane = 0; memcpy((unsigned char*)&lane + o, d, ...)` (x4:98-101, 117-118). -/
def partLane (o : Nat) (d : Bytes) : Option Lane := (SnP.overwriteBytes (Bytes.zeros 4) d o).map wordOfBytes

/-- `InitializeAll` (x4:83-86, x8:120-123, x16:378-381). -/
def initAll (mem : Bytes) : Option Bytes := some (Bytes.zeros mem.length)

/-- `AddByte` (SSSE3/Xoodoo-times4-SnP.h:37-38, AVX2/Xoodoo-times8-SnP.h:37-38, AVX512/Xoodoo-times16-SnP.h:37-38); the index is
computed in `unsigned int`. -/
def addByte (N : Nat) (mem : Bytes) (i : Nat) (b : Byte) (offset : Nat) : Option Bytes :=
  SnP.addBytes mem [b] ((i * 4 + offset / 4 * N * 4 + offset % 4) % 2 ^ 32)

/-- The `while(sizeLeft >= SnP_laneLengthInBytes)` loop of `AddBytes` and `OverwriteBytes` (x4:108-114, 171-177; x8:145-151, 214-220;
x16:403-409, 467-473); `full` is what is done with a lane of data.  Gives the memory, `lanePosition`, and what remains of the
data. -/
def fullLanes (N i : Nat) (full : Bytes → Nat → Lane → Option Bytes) : Nat → Bytes → Nat → Bytes → Nat →
    Option (Bytes × Nat × Bytes × Nat)
  | 0, _, _, _, _ => none
  | fuel + 1, mem, p, cur, left =>
    if left ≥ 4 then do
      let lane ← loadWord cur 0
      let mem ← full mem (laneIndex N i p) lane
      fullLanes N i full fuel mem (p + 1) (cur.drop 4) (left - 4)
    else some (mem, p, cur, left)

/-- The first `if` of `AddBytes` and `OverwriteBytes` (x4:96-106, 161-169; x8:133-143, 204-212; x16:391-401, 457-465); `part` is
what is done with data for part of a lane. -/
def firstLane (N i : Nat) (part : Bytes → Nat → Nat → Bytes → Option Bytes) (mem : Bytes) (p o : Nat) (data : Bytes) :
    Option (Bytes × Nat × Bytes × Nat) :=
  if data.length > 0 ∧ o ≠ 0 then
    let bytesInLane := if 4 - o > data.length then data.length else 4 - o
    (part mem (laneIndex N i p) o (data.take bytesInLane)).map fun mem =>
      (mem, p + 1, data.drop bytesInLane, data.length - bytesInLane)
  else some (mem, p, data, data.length)

/-- The last `if` of `AddBytes` and `OverwriteBytes` (x4:116-120, 179-181; x8:153-157, 222-224; x16:411-415, 475-477). -/
def lastLane (N i : Nat) (part : Bytes → Nat → Nat → Bytes → Option Bytes) (mem : Bytes) (p : Nat) (cur : Bytes) (left : Nat) :
    Option Bytes :=
  if left > 0 then do
    let d ← SnP.readBuf cur left
    part mem (laneIndex N i p) 0 d
  else some mem

/-- The structure of `AddBytes` and `OverwriteBytes`. -/
def update (N : Nat) (full : Bytes → Nat → Lane → Option Bytes) (part : Bytes → Nat → Nat → Bytes → Option Bytes)
    (mem : Bytes) (i : Nat) (data : Bytes) (offset : Nat) : Option Bytes := do
  let (mem, p, cur, left) ← firstLane N i part mem (offset / 4) (offset % 4) data
  let (mem, p, cur, left) ← fullLanes N i full (left + 1) mem p cur left
  lastLane N i part mem p cur left

/-- What `AddBytes` does with data for part of a lane (x4:98-102, 117-119). -/
def addPart (mem : Bytes) (idx o : Nat) (d : Bytes) : Option Bytes := do
  let lane ← partLane o d
  xorLane mem idx lane

/-- `AddBytes` (x4:88-121, x8:125-158, x16:383-416). -/
def addBytes (N : Nat) : Bytes → Nat → Bytes → Nat → Option Bytes := update N xorLane addPart

/-- `OverwriteBytes` (x4:153-182, x8:196-225, x16:449-478). -/
def overwriteBytes (N : Nat) : Bytes → Nat → Bytes → Nat → Option Bytes :=
  update N (fun mem idx lane => storeWord mem (4 * idx) lane) copyTo

/-- The loop of `OverwriteWithZeroes` (x4:220-224, x8:269-273, x16:517-521): the memory, `lanePosition`, `sizeLeft`. -/
def zeroLanes (N i : Nat) : Nat → Bytes → Nat → Nat → Option (Bytes × Nat × Nat)
  | 0, _, _, _ => none
  | fuel + 1, mem, p, left =>
    if left ≥ 4 then do
      let mem ← storeWord mem (4 * laneIndex N i p) 0
      zeroLanes N i fuel mem (p + 1) (left - 4)
    else some (mem, p, left)

/-- The `memset` of `OverwriteWithZeroes` (x4:225-227, x8:275-277, x16:523-525). -/
def zeroRest (N i : Nat) (mem : Bytes) (p left : Nat) : Option Bytes :=
  if left > 0 then copyTo mem (laneIndex N i p) 0 (Bytes.zeros left) else some mem

/-- `OverwriteWithZeroes` (x4:214-228, x8:263-278, x16:511-526). -/
def overwriteWithZeroes (N : Nat) (mem : Bytes) (i byteCount : Nat) : Option Bytes := do
  let (mem, p, left) ← zeroLanes N i (byteCount + 1) mem 0 byteCount
  zeroRest N i mem p left

/-- The structure of `ExtractBytes` and `ExtractAndAddBytes` (x4:230-258, 294-331; x8:280-308, 353-390; x16:528-556, 589-626),
the loop: `full idx input` and `part idx o n input` are the bytes written for (part of) a lane. -/
def outLanes (N i : Nat) (full : Nat → Bytes → Option Bytes) : Nat → Nat → Bytes → Nat → Bytes →
    Option (Nat × Bytes × Nat × Bytes)
  | 0, _, _, _, _ => none
  | fuel + 1, p, cur, left, out =>
    if left ≥ 4 then do
      let w ← full (laneIndex N i p) cur
      outLanes N i full fuel (p + 1) (cur.drop 4) (left - 4) (out ++ w)
    else some (p, cur, left, out)

/-- The first `if` of `ExtractBytes` and `ExtractAndAddBytes` (x4:238-246, 303-314; x8:288-296, 362-373; x16:536-544, 598-609):
`lanePosition`, what remains of the input, `sizeLeft`, the bytes written. -/
def outFirst (N i : Nat) (part : Nat → Nat → Nat → Bytes → Option Bytes) (p o : Nat) (input : Bytes) (length : Nat) :
    Option (Nat × Bytes × Nat × Bytes) :=
  if length > 0 ∧ o ≠ 0 then
    let bytesInLane := if 4 - o > length then length else 4 - o
    (part (laneIndex N i p) o bytesInLane input).map fun out =>
      (p + 1, input.drop bytesInLane, length - bytesInLane, out)
  else some (p, input, length, [])

/-- The last `if` of `ExtractBytes` and `ExtractAndAddBytes` (x4:255-257, 324-330; x8:305-307, 383-389; x16:553-555, 619-625). -/
def outLast (N i : Nat) (part : Nat → Nat → Nat → Bytes → Option Bytes) (p : Nat) (cur : Bytes) (left : Nat) (out : Bytes) :
    Option Bytes :=
  if left > 0 then (part (laneIndex N i p) 0 left cur).map fun w => out ++ w else some out

/-- The structure of `ExtractBytes` and `ExtractAndAddBytes`: the bytes written. -/
def output (N : Nat) (full : Nat → Bytes → Option Bytes) (part : Nat → Nat → Nat → Bytes → Option Bytes) (i : Nat)
    (input : Bytes) (offset length : Nat) : Option Bytes := do
  let (p, cur, left, out) ← outFirst N i part (offset / 4) (offset % 4) input length
  let (p, cur, left, out) ← outLanes N i full (left + 1) p cur left out
  outLast N i part p cur left out

/-- `memcpy(curData, (unsigned char *)&statesAsLanes[idx] + o, n)` (x4:242, 256). -/
def copyFrom (mem : Bytes) (idx o n : Nat) : Option Bytes := SnP.readBuf (mem.drop (4 * idx + o)) n

/-- `ExtractBytes` (x4:230-258, x8:280-308, x16:528-556); it has no input. -/
def extractBytes (N : Nat) (mem : Bytes) (i offset length : Nat) : Option Bytes :=
  output N (fun idx _ => (loadWord mem (4 * idx)).map bytesOfWord) (fun idx o n _ => copyFrom mem idx o n) i [] offset length

/-- `do { *(curOutput++) = *(curInput++) ^ (unsigned char)lane; lane >>= 4; } while ( --n != 0);` (x4:309-312, 326-329); `n` is
not 0 where the loop is used. -/
def xorOut : Nat → Lane → Bytes → Option Bytes
  | 0, _, _ => some []
  | n + 1, lane, input => do
    let x ← input.head?
    let rest ← xorOut n (lane >>> 8) input.tail
    some ((x ^^^ lane.setWidth 8) :: rest)

/-- `ExtractAndAddBytes`, part of a lane (x4:305-312, 325-329). -/
def addOutPart (mem : Bytes) (idx o n : Nat) (input : Bytes) : Option Bytes := do
  let lane ← loadWord mem (4 * idx)
  xorOut n (lane >>> (8 * o)) input

/-- `ExtractAndAddBytes`, a lane (x4:317). -/
def addOutFull (mem : Bytes) (idx : Nat) (input : Bytes) : Option Bytes := do
  let x ← loadWord input 0
  let lane ← loadWord mem (4 * idx)
  some (bytesOfWord (x ^^^ lane))

/-- `ExtractAndAddBytes` (x4:294-331, x8:353-390, x16:589-626). -/
def extractAndAddBytes (N : Nat) (mem : Bytes) (i : Nat) (input : Bytes) (offset : Nat) : Option Bytes :=
  output N (addOutFull mem) (addOutPart mem) i input offset input.length

end Interleaved32
