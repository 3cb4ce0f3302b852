import Verif.Model.Relaned

/-!
# The Xoodoo permutation: reference and optimised 32-bit implementations

Models `lib/low/Xoodoo/Xoodoo.h`, `lib/low/Xoodoo/ref/Xoodoo-reference.c` and
`lib/low/Xoodoo/plain/Xoodoo-optimized.c` (with `Xoodoo-SnP.h` of both directories).  `tXoodooLane` is `uint32_t`; an
array of 12 lanes is a function from `Fin 12`.  Words in memory are little endian (the optimised implementation
supports nothing else).  The `Dump` calls (debugging) and the assertions compiled with `DEBUG` are not modelled.
-/

namespace Xoodoo

open KeccakP1600 (loopFrom put loopM)

/-- `tXoodooLane` (Xoodoo.h:77). -/
abbrev Lane := BitVec 32

/-- An array `tXoodooLane a[NLANES]` (Xoodoo.h:24-26). -/
abbrev Lanes := Fin 12 → Lane

/-- `ROTL32(a, offset)` (Xoodoo.h:49). -/
def rotl32 (a : Lane) (offset : Nat) : Lane := (a <<< (offset % 32)) ^^^ (a >>> ((32 - offset) % 32))

/-- `index(x, y)` (Xoodoo.h:74). -/
def index (x y : Nat) : Fin 12 := ⟨y % 3 * 4 + x % 4, by omega⟩

/-- `x - 1` on `unsigned int`. -/
def pred (x : Nat) : Nat := (x + 4294967295) % 4294967296

/-- The table `RC` (Xoodoo-reference.c:214-227 and Xoodoo-optimized.c:337-350, with the values of
Xoodoo.h:29-40). -/
def RC : List Lane :=
  [0x00000058, 0x00000038, 0x000003C0, 0x000000D0, 0x00000120, 0x00000014, 0x00000060, 0x0000002C, 0x00000380,
   0x000000F0, 0x000001A0, 0x00000012]

/-- `fromBytesToWords` (Xoodoo-reference.c:146-155), one word: the loop over `j`. -/
def wordOfBytes (b : Bytes) : Lane :=
  loopFrom (fun j w => w ||| ((b.getD j 0).setWidth 32 <<< (8 * j))) 0 4 0

/-- `fromBytesToWords` (Xoodoo-reference.c:146-155). -/
def lanesOfBytes (s : Bytes) : Lanes := fun i => wordOfBytes (s.drop (i.val * 4))

/-- `fromWordsToBytes` (Xoodoo-reference.c:157-164), one word: the loop over `j`. -/
def bytesOfWord (w : Lane) : Bytes := (List.range 4).map fun j => ((w >>> (8 * j)) &&& 0xFF).setWidth 8

/-- `fromWordsToBytes` (Xoodoo-reference.c:157-164). -/
def bytesOfLanes (A : Lanes) : Bytes := (List.finRange 12).flatMap fun i => bytesOfWord (A i)

namespace Ref

/-- `p[x]` (Xoodoo-reference.c:174-175). -/
def parity (a : Lanes) (x : Nat) : Lane := a (index x 0) ^^^ a (index x 1) ^^^ a (index x 2)

/-- `e[x]` (Xoodoo-reference.c:176-177). -/
def effect (a : Lanes) (x : Nat) : Lane :=
  rotl32 (parity a (pred x % 4)) 5 ^^^ rotl32 (parity a (pred x % 4)) 14

/-- Theta (Xoodoo-reference.c:173-180); `p` and `e` are computed before `a` is modified. -/
def theta (a : Lanes) : Lanes :=
  loopFrom (fun x b => loopFrom (fun y b => put b (index x y) (b (index x y) ^^^ effect a x)) 0 3 b) 0 4 a

/-- Rho-west (Xoodoo-reference.c:183-189); the array `b` is overwritten entirely. -/
def rhoWest (a : Lanes) : Lanes :=
  loopFrom (fun x b =>
    let b := put b (index x 0) (a (index x 0))
    let b := put b (index x 1) (a (index (pred x) 1))
    put b (index x 2) (rotl32 (a (index x 2)) 11)) 0 4 (fun _ => 0)

/-- Iota (Xoodoo-reference.c:193). -/
def iota (rc : Lane) (a : Lanes) : Lanes := put a 0 (a 0 ^^^ rc)

/-- Chi (Xoodoo-reference.c:197-200). -/
def chi (a : Lanes) : Lanes :=
  loopFrom (fun x b => loopFrom (fun y b =>
    put b (index x y) (a (index x y) ^^^ (~~~ a (index x (y + 1)) &&& a (index x (y + 2))))) 0 3 b) 0 4 (fun _ => 0)

/-- Rho-east (Xoodoo-reference.c:204-209). -/
def rhoEast (a : Lanes) : Lanes :=
  loopFrom (fun x b =>
    let b := put b (index x 0) (a (index x 0))
    let b := put b (index x 1) (rotl32 (a (index x 1)) 1)
    put b (index x 2) (rotl32 (a (index (x + 2) 2)) 8)) 0 4 (fun _ => 0)

/-- `Xoodoo_Round` (Xoodoo-reference.c:166-212). -/
def round (rc : Lane) (a : Lanes) : Lanes := rhoEast (chi (iota rc (rhoWest (theta a))))

/-- The loop of `Xoodoo_Permute_Nrounds` (Xoodoo-reference.c:236-239).  `MAXROUNDS - nr` is computed on
`unsigned int`: for `nr > 12` it is at least 12 and there is no iteration. -/
def onWords (nr : Nat) (a : Lanes) : Lanes :=
  if nr ≤ 12 then loopFrom (fun i a => round (RC.getD i 0) a) (12 - nr) nr a else a

/-- `Xoodoo_Permute_Nrounds` (Xoodoo-reference.c:229-244). -/
def permuteNrounds (nr : Nat) (s : Bytes) : Bytes := bytesOfLanes (onWords nr (lanesOfBytes s))

/-- `Xoodoo_Permute_6rounds` (Xoodoo-reference.c:246-249). -/
def permute6 (s : Bytes) : Bytes := permuteNrounds 6 s

/-- `Xoodoo_Permute_12rounds` (Xoodoo-reference.c:251-254). -/
def permute12 (s : Bytes) : Bytes := permuteNrounds 12 s

/-- `Xoodoo_AddByte` (Xoodoo-reference.c:43-49), on the array of 48 bytes. -/
def addByte (s : Bytes) (b : Byte) (offset : Nat) : Option Bytes := do
  let a ← s[offset]?
  some (s.set offset (a ^^^ b))

/-- `Xoodoo_AddBytes` (Xoodoo-reference.c:53-63). -/
def addBytes (s data : Bytes) (offset length : Nat) : Option Bytes :=
  loopM (fun i s => do
    let d ← data[i]?
    let a ← s[offset + i]?
    some (s.set (offset + i) (a ^^^ d))) 0 length s

/-- `Xoodoo_OverwriteBytes` (Xoodoo-reference.c:67-74): `memcpy`. -/
def overwriteBytes (s data : Bytes) (offset length : Nat) : Option Bytes := do
  let d ← SnP.readBuf data length
  if offset + length ≤ s.length then some (s.take offset ++ d ++ s.drop (offset + length)) else none

/-- `Xoodoo_OverwriteWithZeroes` (Xoodoo-reference.c:78-84): `memset`. -/
def overwriteWithZeroes (s : Bytes) (byteCount : Nat) : Option Bytes :=
  if byteCount ≤ s.length then some (List.replicate byteCount 0 ++ s.drop byteCount) else none

/-- `Xoodoo_ExtractBytes` (Xoodoo-reference.c:88-95): `memcpy`. -/
def extractBytes (s : Bytes) (offset length : Nat) : Option Bytes := SnP.readBuf (s.drop offset) length

/-- `Xoodoo_ExtractAndAddBytes` (Xoodoo-reference.c:99-109). -/
def extractAndAddBytes (s input : Bytes) (offset length : Nat) : Option Bytes :=
  loopM (fun i output => do
    let d ← input[i]?
    let a ← s[offset + i]?
    some (output ++ [d ^^^ a])) 0 length []

/-- The byte access functions (Xoodoo-reference.c:36-109). -/
def access : Access Bytes where
  init := List.replicate 48 0
  addByte := addByte
  addBytes := addBytes
  overwriteBytes := overwriteBytes
  overwriteWithZeroes := overwriteWithZeroes
  extractBytes := extractBytes
  extractAndAddBytes := extractAndAddBytes

end Ref

namespace Opt

/-- The variables of `DeclareVars` that hold the state (Xoodoo-optimized.c:233-236). -/
structure V where
  a00 : Lane
  a01 : Lane
  a02 : Lane
  a03 : Lane
  a10 : Lane
  a11 : Lane
  a12 : Lane
  a13 : Lane
  a20 : Lane
  a21 : Lane
  a22 : Lane
  a23 : Lane

/-- `State2Vars` (Xoodoo-optimized.c:238-240). -/
def state2Vars (A : Lanes) : V := ⟨A 0, A 1, A 2, A 3, A 4, A 5, A 6, A 7, A 8, A 9, A 10, A 11⟩

/-- `Vars2State` (Xoodoo-optimized.c:242-244). -/
def vars2State (v : V) : Lanes := fun i =>
  match i.val with
  | 0 => v.a00 | 1 => v.a01 | 2 => v.a02 | 3 => v.a03
  | 4 => v.a10 | 5 => v.a11 | 6 => v.a12 | 7 => v.a13
  | 8 => v.a20 | 9 => v.a21 | 10 => v.a22 | _ => v.a23

/-- `Theta()` (Xoodoo-optimized.c:249-269). -/
def theta (v : V) : V :=
  let ⟨a00, a01, a02, a03, a10, a11, a12, a13, a20, a21, a22, a23⟩ := v
  let v1 := a03 ^^^ a13 ^^^ a23
  let v2 := a00 ^^^ a10 ^^^ a20
  let v1 := rotl32 v1 5 ^^^ rotl32 v1 14
  let a00 := a00 ^^^ v1
  let a10 := a10 ^^^ v1
  let a20 := a20 ^^^ v1
  let v1 := a01 ^^^ a11 ^^^ a21
  let v2 := rotl32 v2 5 ^^^ rotl32 v2 14
  let a01 := a01 ^^^ v2
  let a11 := a11 ^^^ v2
  let a21 := a21 ^^^ v2
  let v2 := a02 ^^^ a12 ^^^ a22
  let v1 := rotl32 v1 5 ^^^ rotl32 v1 14
  let a02 := a02 ^^^ v1
  let a12 := a12 ^^^ v1
  let a22 := a22 ^^^ v1
  let v2 := rotl32 v2 5 ^^^ rotl32 v2 14
  let a03 := a03 ^^^ v2
  let a13 := a13 ^^^ v2
  let a23 := a23 ^^^ v2
  ⟨a00, a01, a02, a03, a10, a11, a12, a13, a20, a21, a22, a23⟩

/-- `Rho_west()` (Xoodoo-optimized.c:274-283). -/
def rhoWest (v : V) : V :=
  let ⟨a00, a01, a02, a03, a10, a11, a12, a13, a20, a21, a22, a23⟩ := v
  let a20 := rotl32 a20 11
  let a21 := rotl32 a21 11
  let a22 := rotl32 a22 11
  let a23 := rotl32 a23 11
  let v1 := a13
  let a13 := a12
  let a12 := a11
  let a11 := a10
  let a10 := v1
  ⟨a00, a01, a02, a03, a10, a11, a12, a13, a20, a21, a22, a23⟩

/-- `Iota(__rc)` (Xoodoo-optimized.c:288). -/
def iota (rc : Lane) (v : V) : V := { v with a00 := v.a00 ^^^ rc }

/-- `Chi()` (Xoodoo-optimized.c:293-308). -/
def chi (v : V) : V :=
  let ⟨a00, a01, a02, a03, a10, a11, a12, a13, a20, a21, a22, a23⟩ := v
  let a00 := a00 ^^^ (~~~ a10 &&& a20)
  let a10 := a10 ^^^ (~~~ a20 &&& a00)
  let a20 := a20 ^^^ (~~~ a00 &&& a10)
  let a01 := a01 ^^^ (~~~ a11 &&& a21)
  let a11 := a11 ^^^ (~~~ a21 &&& a01)
  let a21 := a21 ^^^ (~~~ a01 &&& a11)
  let a02 := a02 ^^^ (~~~ a12 &&& a22)
  let a12 := a12 ^^^ (~~~ a22 &&& a02)
  let a22 := a22 ^^^ (~~~ a02 &&& a12)
  let a03 := a03 ^^^ (~~~ a13 &&& a23)
  let a13 := a13 ^^^ (~~~ a23 &&& a03)
  let a23 := a23 ^^^ (~~~ a03 &&& a13)
  ⟨a00, a01, a02, a03, a10, a11, a12, a13, a20, a21, a22, a23⟩

/-- `Rho_east()` (Xoodoo-optimized.c:313-323). -/
def rhoEast (v : V) : V :=
  let ⟨a00, a01, a02, a03, a10, a11, a12, a13, a20, a21, a22, a23⟩ := v
  let a10 := rotl32 a10 1
  let a11 := rotl32 a11 1
  let a12 := rotl32 a12 1
  let a13 := rotl32 a13 1
  let v1 := rotl32 a23 8
  let a23 := rotl32 a21 8
  let a21 := v1
  let v1 := rotl32 a22 8
  let a22 := rotl32 a20 8
  let a20 := v1
  ⟨a00, a01, a02, a03, a10, a11, a12, a13, a20, a21, a22, a23⟩

/-- `Round(__rc)` (Xoodoo-optimized.c:325-335). -/
def round (rc : Lane) (v : V) : V := rhoEast (chi (iota rc (rhoWest (theta v))))

/-- `Xoodoo_Permute_Nrounds` (Xoodoo-optimized.c:352-364); `nr > 12` gives no iteration, see `Ref.onWords`. -/
def permuteNrounds (nr : Nat) (A : Lanes) : Lanes :=
  vars2State (if nr ≤ 12 then loopFrom (fun i v => round (RC.getD i 0) v) (12 - nr) nr (state2Vars A)
    else state2Vars A)

/-- `Xoodoo_Permute_6rounds` (Xoodoo-optimized.c:366-379), with the constants of Xoodoo.h:35-40. -/
def permute6 (A : Lanes) : Lanes :=
  let v := state2Vars A
  let v := round 0x00000060 v
  let v := round 0x0000002C v
  let v := round 0x00000380 v
  let v := round 0x000000F0 v
  let v := round 0x000001A0 v
  let v := round 0x00000012 v
  vars2State v

/-- `Xoodoo_Permute_12rounds` (Xoodoo-optimized.c:381-400), with the constants of Xoodoo.h:29-40. -/
def permute12 (A : Lanes) : Lanes :=
  let v := state2Vars A
  let v := round 0x00000058 v
  let v := round 0x00000038 v
  let v := round 0x000003C0 v
  let v := round 0x000000D0 v
  let v := round 0x00000120 v
  let v := round 0x00000014 v
  let v := round 0x00000060 v
  let v := round 0x0000002C v
  let v := round 0x00000380 v
  let v := round 0x000000F0 v
  let v := round 0x000001A0 v
  let v := round 0x00000012 v
  vars2State v

/-- `A[i]`, with a bounds check. -/
def getLane (A : Lanes) (i : Nat) : Option Lane := if h : i < 12 then some (A ⟨i, h⟩) else none

/-- `A[i] = w`, with a bounds check. -/
def setLane (A : Lanes) (i : Nat) (w : Lane) : Option Lanes := if h : i < 12 then some (put A ⟨i, h⟩ w) else none

/-- `*(uint32_t*)data`: `READ32_UNALIGNED` (Xoodoo.h:59). -/
def readLane (data : Bytes) : Option Lane := do
  let b ← SnP.readBuf data 4
  some (wordOfBytes b)

/-- `Xoodoo_Initialize` (Xoodoo-optimized.c:53-56). -/
def initState : Lanes := fun _ => 0

/-- `Xoodoo_AddByte` (plain/Xoodoo-SnP.h:37): `((uint8_t*)state)[offset] ^= byte`. -/
def addByte (A : Lanes) (b : Byte) (offset : Nat) : Option Lanes :=
  if offset < 48 then some (lanesOfBytes (Bytes.xorAt (bytesOfLanes A) offset [b])) else none

/-- `*state ^= lane`. -/
def xorLane (A : Lanes) (i : Nat) (w : Lane) : Option Lanes := do
  let a ← getLane A i
  setLane A i (a ^^^ w)

/-- The twelve statements `state[i] ^= data[i]` (Xoodoo-optimized.c:66-77). -/
def addAll (A : Lanes) (data : Bytes) : Option Lanes :=
  loopM (fun i A => do
    let w ← readLane (data.drop (i * 4))
    xorLane A i w) 0 12 A

/-- `while(sizeLeft >= 4)` in `Xoodoo_AddBytes` (Xoodoo-optimized.c:98-102): the state, the lane number, the
remaining data and their number of bytes. -/
def addWords : Nat → Lanes → Nat → Bytes → Nat → Option (Lanes × Nat × Bytes × Nat)
  | 0, _, _, _, _ => none
  | fuel + 1, A, lane, cur, sizeLeft =>
    if sizeLeft ≥ 4 then do
      let w ← readLane cur
      let A ← xorLane A lane w
      addWords fuel A (lane + 1) (cur.drop 4) (sizeLeft - 4)
    else some (A, lane, cur, sizeLeft)

/-- A `uint32_t lane = 0` into which `d` is copied at byte `offset` by `memcpy` (Xoodoo-optimized.c:89-92,
105-106); copying beyond the end of the variable is undefined. -/
def memLane (offset : Nat) (d : Bytes) : Option Lane :=
  if offset + d.length ≤ 4 then some (wordOfBytes (Bytes.setAt (Bytes.zeros 4) offset d)) else none

/-- The first, partial lane in `Xoodoo_AddBytes` (Xoodoo-optimized.c:80-96): the state, the lane number, the remaining
data and their number of bytes. -/
def addFirst (A : Lanes) (data : Bytes) (offset length : Nat) : Option (Lanes × Nat × Bytes × Nat) :=
  let lanePosition := offset / 4
  let offsetInLane := offset % 4
  if length > 0 ∧ offsetInLane ≠ 0 then do
    let bytesInLane := if 4 - offsetInLane > length then length else 4 - offsetInLane
    let d ← SnP.readBuf data bytesInLane
    let w ← memLane offsetInLane d
    let A ← xorLane A lanePosition w
    some (A, lanePosition + 1, data.drop bytesInLane, length - bytesInLane)
  else some (A, lanePosition, data, length)

/-- `Xoodoo_AddBytes` (Xoodoo-optimized.c:60-113). -/
def addBytes (A : Lanes) (data : Bytes) (offset length : Nat) : Option Lanes :=
  if length = 48 then addAll A data
  else do
    let st ← addFirst A data offset length
    let st ← addWords (length + 1) st.1 st.2.1 st.2.2.1 st.2.2.2
    if st.2.2.2 > 0 then do
      let d ← SnP.readBuf st.2.2.1 st.2.2.2
      let w ← memLane 0 d
      xorLane st.1 st.2.1 w
    else some st.1

/-- `Xoodoo_OverwriteBytes` (Xoodoo-optimized.c:117-141). -/
def overwriteBytes (A : Lanes) (data : Bytes) (offset length : Nat) : Option Lanes :=
  if length = 48 then
    loopM (fun i A => do
      let w ← readLane (data.drop (i * 4))
      setLane A i w) 0 12 A
  else do
    let d ← SnP.readBuf data length
    if offset + length ≤ 48 then some (lanesOfBytes (Bytes.setAt (bytesOfLanes A) offset d)) else none

/-- `Xoodoo_OverwriteWithZeroes` (Xoodoo-optimized.c:145-152): `memset`. -/
def overwriteWithZeroes (A : Lanes) (byteCount : Nat) : Option Lanes :=
  if byteCount ≤ 48 then some (lanesOfBytes (Bytes.setAt (bytesOfLanes A) 0 (Bytes.zeros byteCount))) else none

/-- `Xoodoo_ExtractBytes` (Xoodoo-optimized.c:156-163): `memcpy`. -/
def extractBytes (A : Lanes) (offset length : Nat) : Option Bytes :=
  if offset + length ≤ 48 then some (Bytes.slice (bytesOfLanes A) offset length) else none

/-- `do { *curOutput++ = (*curInput++) ^ (unsigned char)lane; lane >>= 8; } while (--n != 0)`
(Xoodoo-optimized.c:203-207, 219-223): the loop over the `n` input bytes, `n > 0`. -/
def shiftOut : Lane → Bytes → Bytes
  | _, [] => []
  | lane, b :: bs => (b ^^^ lane.setWidth 8) :: shiftOut (lane >>> 8) bs

/-- `while(sizeLeft >= 4)` in `Xoodoo_ExtractAndAddBytes` (Xoodoo-optimized.c:210-215): the bytes written, the
lane number, the remaining input and its number of bytes. -/
def xorWords (A : Lanes) : Nat → Nat → Bytes → Nat → Option (Bytes × Nat × Bytes × Nat)
  | 0, _, _, _ => none
  | fuel + 1, lane, cur, sizeLeft =>
    if sizeLeft ≥ 4 then do
      let w ← readLane cur
      let a ← getLane A lane
      let st ← xorWords A fuel (lane + 1) (cur.drop 4) (sizeLeft - 4)
      some (bytesOfWord (w ^^^ a) ++ st.1, st.2)
    else some ([], lane, cur, sizeLeft)

/-- The twelve statements `oo[i] = state[i] ^ ii[i]` (Xoodoo-optimized.c:175-186). -/
def xorAll (A : Lanes) (input : Bytes) : Option Bytes :=
  loopM (fun i out => do
    let w ← readLane (input.drop (i * 4))
    let a ← getLane A i
    some (out ++ bytesOfWord (a ^^^ w))) 0 12 []

/-- The first, partial lane in `Xoodoo_ExtractAndAddBytes` (Xoodoo-optimized.c:189-208): the bytes written, the lane
number, the remaining input and its number of bytes. -/
def xorFirst (A : Lanes) (input : Bytes) (offset length : Nat) : Option (Bytes × Nat × Bytes × Nat) :=
  let lanePosition := offset / 4
  let offsetInLane := offset % 4
  if length > 0 ∧ offsetInLane ≠ 0 then do
    let bytesInLane := if 4 - offsetInLane > length then length else 4 - offsetInLane
    let a ← getLane A lanePosition
    let d ← SnP.readBuf input bytesInLane
    some (shiftOut (a >>> (offsetInLane * 8)) d, lanePosition + 1, input.drop bytesInLane, length - bytesInLane)
  else some ([], lanePosition, input, length)

/-- `Xoodoo_ExtractAndAddBytes` (Xoodoo-optimized.c:167-229). -/
def extractAndAddBytes (A : Lanes) (input : Bytes) (offset length : Nat) : Option Bytes :=
  if length = 48 then xorAll A input
  else do
    let st ← xorFirst A input offset length
    let st' ← xorWords A (length + 1) st.2.1 st.2.2.1 st.2.2.2
    if st'.2.2.2 > 0 then do
      let a ← getLane A st'.2.1
      let d ← SnP.readBuf st'.2.2.1 st'.2.2.2
      some (st.1 ++ st'.1 ++ shiftOut a d)
    else some (st.1 ++ st'.1)

/-- The byte access functions (plain/Xoodoo-SnP.h:36-45). -/
def access : Access Lanes where
  init := initState
  addByte := addByte
  addBytes := addBytes
  overwriteBytes := overwriteBytes
  overwriteWithZeroes := overwriteWithZeroes
  extractBytes := extractBytes
  extractAndAddBytes := extractAndAddBytes

end Opt

end Xoodoo
