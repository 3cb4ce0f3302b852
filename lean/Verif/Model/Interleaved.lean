import Verif.Model.Simd

/-!
# Access to the bytes of one of `N` interleaved states

Models the functions of the SIMD implementations that work on one of the `N` states: `InitializeAll`, `AddByte`,
`AddBytes`, `OverwriteBytes`, `OverwriteWithZeroes`, `ExtractBytes` and `ExtractAndAddBytes` of

* `lib/low/KeccakP-1600-times2/SIMD128/KeccakP-1600-times2-SIMD128.c` (cited as `x2`; `N = 2`),
* `lib/low/KeccakP-1600-times4/AVX2/KeccakP-1600-times4-SIMD256.c` (`x4`; `N = 4`),
* `lib/low/KeccakP-1600-times8/AVX512/KeccakP-1600-times8-SIMD512.c` (`x8`; `N = 8`),
* `lib/low/KeccakP-1600-times2/AVX512/KeccakP-1600-times2-SIMD512.c` and
  `lib/low/KeccakP-1600-times4/AVX512/KeccakP-1600-times4-SIMD512.c`.

The text of these functions is the same in the five files, except for names of types.  The state is an array of 25 registers
of `N` lanes, also accessed as an array of 64-bit lanes and of bytes; here it is the list of its bytes.  `data` is what remains of
the buffer from the pointer on, and its length is the argument `length`; the pointers `input` and `output` are to separate
buffers.
-/

namespace Interleaved

open KeccakP1600 (Lane wordOfBytes bytesOfWord)
open Simd (loadWord storeWord)

/-- `laneIndex(instanceIndex, lanePosition)` (x2:41, x4:40, x8:330), in `unsigned int`. -/
def laneIndex (N i p : Nat) : Nat := (p * N + i) % 2 ^ 32

/-- `statesAsLanes[idx] ^= lane`. -/
def xorLane (mem : Bytes) (idx : Nat) (lane : Lane) : Option Bytes := do
  let w ← loadWord mem (8 * idx)
  storeWord mem (8 * idx) (w ^^^ lane)

/-- `memcpy((unsigned char*)&statesAsLanes[idx] + o, d, ...)`. -/
def copyTo (mem : Bytes) (idx o : Nat) (d : Bytes) : Option Bytes := SnP.overwriteBytes mem d (8 * idx + o)

/-- `uint64_t lane = 0; memcpy((unsigned char*)&lane + o, d, ...)` (x2:91-94, 110-111). -/
def partLane (o : Nat) (d : Bytes) : Option Lane := (SnP.overwriteBytes (Bytes.zeros 8) d o).map wordOfBytes

/-- `InitializeAll` (x2:76-79, x4:86-89, x8:333-336). -/
def initAll (mem : Bytes) : Option Bytes := some (Bytes.zeros mem.length)

/-- `AddByte` (SIMD128/KeccakP-1600-times2-SnP.h:39-40, AVX2/KeccakP-1600-times4-SnP.h:41-42, AVX512/KeccakP-1600-times8-SnP.h:42-43); the index is
computed in `unsigned int`. -/
def addByte (N : Nat) (mem : Bytes) (i : Nat) (b : Byte) (offset : Nat) : Option Bytes :=
  SnP.addBytes mem [b] ((i * 8 + offset / 8 * N * 8 + offset % 8) % 2 ^ 32)

/-- The `while(sizeLeft >= SnP_laneLengthInBytes)` loop of `AddBytes` and `OverwriteBytes` (x2:101-107, 179-185; x4:111-117,
189-195; x8:358-364, 437-443); `full` is what is done with a lane of data.  Gives the memory, `lanePosition`, and what remains of the
data. -/
def fullLanes (N i : Nat) (full : Bytes → Nat → Lane → Option Bytes) : Nat → Bytes → Nat → Bytes → Nat →
    Option (Bytes × Nat × Bytes × Nat)
  | 0, _, _, _, _ => none
  | fuel + 1, mem, p, cur, left =>
    if left ≥ 8 then do
      let lane ← loadWord cur 0
      let mem ← full mem (laneIndex N i p) lane
      fullLanes N i full fuel mem (p + 1) (cur.drop 8) (left - 8)
    else some (mem, p, cur, left)

/-- The first `if` of `AddBytes` and `OverwriteBytes` (x2:89-99, 169-177; x4:99-109, 179-187; x8:346-356, 427-435); `part` is
what is done with data for part of a lane. -/
def firstLane (N i : Nat) (part : Bytes → Nat → Nat → Bytes → Option Bytes) (mem : Bytes) (p o : Nat) (data : Bytes) :
    Option (Bytes × Nat × Bytes × Nat) :=
  if data.length > 0 ∧ o ≠ 0 then
    let bytesInLane := if 8 - o > data.length then data.length else 8 - o
    (part mem (laneIndex N i p) o (data.take bytesInLane)).map fun mem =>
      (mem, p + 1, data.drop bytesInLane, data.length - bytesInLane)
  else some (mem, p, data, data.length)

/-- The last `if` of `AddBytes` and `OverwriteBytes` (x2:109-113, 187-189; x4:119-123, 197-199; x8:366-370, 445-447). -/
def lastLane (N i : Nat) (part : Bytes → Nat → Nat → Bytes → Option Bytes) (mem : Bytes) (p : Nat) (cur : Bytes) (left : Nat) :
    Option Bytes :=
  if left > 0 then do
    let d ← SnP.readBuf cur left
    part mem (laneIndex N i p) 0 d
  else some mem

/-- The structure of `AddBytes` and `OverwriteBytes`. -/
def update (N : Nat) (full : Bytes → Nat → Lane → Option Bytes) (part : Bytes → Nat → Nat → Bytes → Option Bytes)
    (mem : Bytes) (i : Nat) (data : Bytes) (offset : Nat) : Option Bytes := do
  let (mem, p, cur, left) ← firstLane N i part mem (offset / 8) (offset % 8) data
  let (mem, p, cur, left) ← fullLanes N i full (left + 1) mem p cur left
  lastLane N i part mem p cur left

/-- What `AddBytes` does with data for part of a lane (x2:91-95, 110-112). -/
def addPart (mem : Bytes) (idx o : Nat) (d : Bytes) : Option Bytes := do
  let lane ← partLane o d
  xorLane mem idx lane

/-- `AddBytes` (x2:81-114, x4:91-124, x8:338-371). -/
def addBytes (N : Nat) : Bytes → Nat → Bytes → Nat → Option Bytes := update N xorLane addPart

/-- `OverwriteBytes` (x2:161-190, x4:171-200, x8:419-448). -/
def overwriteBytes (N : Nat) : Bytes → Nat → Bytes → Nat → Option Bytes :=
  update N (fun mem idx lane => storeWord mem (8 * idx) lane) copyTo

/-- The loop of `OverwriteWithZeroes` (x2:243-247, x4:253-257, x8:502-506): the memory, `lanePosition`, `sizeLeft`. -/
def zeroLanes (N i : Nat) : Nat → Bytes → Nat → Nat → Option (Bytes × Nat × Nat)
  | 0, _, _, _ => none
  | fuel + 1, mem, p, left =>
    if left ≥ 8 then do
      let mem ← storeWord mem (8 * laneIndex N i p) 0
      zeroLanes N i fuel mem (p + 1) (left - 8)
    else some (mem, p, left)

/-- The `memset` of `OverwriteWithZeroes` (x2:249-251, x4:259-261, x8:508-510). -/
def zeroRest (N i : Nat) (mem : Bytes) (p left : Nat) : Option Bytes :=
  if left > 0 then copyTo mem (laneIndex N i p) 0 (Bytes.zeros left) else some mem

/-- `OverwriteWithZeroes` (x2:237-252, x4:247-262, x8:496-511). -/
def overwriteWithZeroes (N : Nat) (mem : Bytes) (i byteCount : Nat) : Option Bytes := do
  let (mem, p, left) ← zeroLanes N i (byteCount + 1) mem 0 byteCount
  zeroRest N i mem p left

/-- The structure of `ExtractBytes` and `ExtractAndAddBytes` (x2:254-282, 365-402; x4:264-292, 344-381; x8:513-541, 589-626),
the loop: `full idx input` and `part idx o n input` are the bytes written for (part of) a lane. -/
def outLanes (N i : Nat) (full : Nat → Bytes → Option Bytes) : Nat → Nat → Bytes → Nat → Bytes →
    Option (Nat × Bytes × Nat × Bytes)
  | 0, _, _, _, _ => none
  | fuel + 1, p, cur, left, out =>
    if left ≥ 8 then do
      let w ← full (laneIndex N i p) cur
      outLanes N i full fuel (p + 1) (cur.drop 8) (left - 8) (out ++ w)
    else some (p, cur, left, out)

/-- The first `if` of `ExtractBytes` and `ExtractAndAddBytes` (x2:262-270, 374-385; x4:272-280, 353-364; x8:521-529, 598-609):
`lanePosition`, what remains of the input, `sizeLeft`, the bytes written. -/
def outFirst (N i : Nat) (part : Nat → Nat → Nat → Bytes → Option Bytes) (p o : Nat) (input : Bytes) (length : Nat) :
    Option (Nat × Bytes × Nat × Bytes) :=
  if length > 0 ∧ o ≠ 0 then
    let bytesInLane := if 8 - o > length then length else 8 - o
    (part (laneIndex N i p) o bytesInLane input).map fun out =>
      (p + 1, input.drop bytesInLane, length - bytesInLane, out)
  else some (p, input, length, [])

/-- The last `if` of `ExtractBytes` and `ExtractAndAddBytes` (x2:279-281, 395-401; x4:289-291, 374-380; x8:538-540, 619-625). -/
def outLast (N i : Nat) (part : Nat → Nat → Nat → Bytes → Option Bytes) (p : Nat) (cur : Bytes) (left : Nat) (out : Bytes) :
    Option Bytes :=
  if left > 0 then (part (laneIndex N i p) 0 left cur).map fun w => out ++ w else some out

/-- The structure of `ExtractBytes` and `ExtractAndAddBytes`: the bytes written. -/
def output (N : Nat) (full : Nat → Bytes → Option Bytes) (part : Nat → Nat → Nat → Bytes → Option Bytes) (i : Nat)
    (input : Bytes) (offset length : Nat) : Option Bytes := do
  let (p, cur, left, out) ← outFirst N i part (offset / 8) (offset % 8) input length
  let (p, cur, left, out) ← outLanes N i full (left + 1) p cur left out
  outLast N i part p cur left out

/-- `memcpy(curData, (unsigned char *)&statesAsLanes[idx] + o, n)` (x2:266, 280). -/
def copyFrom (mem : Bytes) (idx o n : Nat) : Option Bytes := SnP.readBuf (mem.drop (8 * idx + o)) n

/-- `ExtractBytes` (x2:254-282, x4:264-292, x8:513-541); it has no input. -/
def extractBytes (N : Nat) (mem : Bytes) (i offset length : Nat) : Option Bytes :=
  output N (fun idx _ => (loadWord mem (8 * idx)).map bytesOfWord) (fun idx o n _ => copyFrom mem idx o n) i [] offset length

/-- `do { *(curOutput++) = *(curInput++) ^ (unsigned char)lane; lane >>= 8; } while ( --n != 0);` (x2:380-383, 397-400); `n` is
not 0 where the loop is used. -/
def xorOut : Nat → Lane → Bytes → Option Bytes
  | 0, _, _ => some []
  | n + 1, lane, input => do
    let x ← input.head?
    let rest ← xorOut n (lane >>> 8) input.tail
    some ((x ^^^ lane.setWidth 8) :: rest)

/-- `ExtractAndAddBytes`, part of a lane (x2:375-383, 396-400). -/
def addOutPart (mem : Bytes) (idx o n : Nat) (input : Bytes) : Option Bytes := do
  let lane ← loadWord mem (8 * idx)
  xorOut n (lane >>> (8 * o)) input

/-- `ExtractAndAddBytes`, a lane (x2:388). -/
def addOutFull (mem : Bytes) (idx : Nat) (input : Bytes) : Option Bytes := do
  let x ← loadWord input 0
  let lane ← loadWord mem (8 * idx)
  some (bytesOfWord (x ^^^ lane))

/-- `ExtractAndAddBytes` (x2:365-402, x4:344-381, x8:589-626). -/
def extractAndAddBytes (N : Nat) (mem : Bytes) (i : Nat) (input : Bytes) (offset : Nat) : Option Bytes :=
  output N (addOutFull mem) (addOutPart mem) i input offset input.length

end Interleaved
