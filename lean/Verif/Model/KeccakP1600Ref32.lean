import Verif.Model.Relaned

/-!
# Keccak-p[1600]: the 32-bit bit-interleaved reference implementation

Models `lib/low/KeccakP-1600/ref-32bits/KeccakP-1600-reference32BI.c`.  The state is an array of 50 32-bit words: lane
`(x, y)` is represented by word `2*(x+5*y)`, with the bits of the lane at even positions, and word `2*(x+5*y)+1`, with
those at odd positions.  The `display...` calls (compiled only with `KeccakReference`), and the extractions of the
state into a local array that only feed them, are not modelled.
-/

namespace KeccakP1600

/-- `uint32_t`. -/
abbrev Word := BitVec 32

/-- `uint32_t A[50]`, the state (ref-32bits/KeccakP-1600-SnP.h:26-28, plain-32bits-inplace/KeccakP-1600-SnP.h:29-31). -/
abbrev Words := Fin 50 → Word

/-- `A[i]`, with a bounds check. -/
def getWord (A : Words) (i : Nat) : Option Word := if h : i < 50 then some (A ⟨i, h⟩) else none

/-- `A[i] = w`, with a bounds check. -/
def setWord (A : Words) (i : Nat) (w : Word) : Option Words := if h : i < 50 then some (put A ⟨i, h⟩ w) else none

namespace Ref32

/-- `toBitInterleaving` (KeccakP-1600-reference32BI.c:52-69): the words `*even` and `*odd`. -/
def toBitInterleaving (low high : Word) : Word × Word :=
  loopFrom (fun i st =>
    let inBit : Word := if i < 32 then (low >>> i) &&& 1 else (high >>> (i - 32)) &&& 1
    if i % 2 = 0 then (st.1 ||| (inBit <<< (i / 2)), st.2)
    else (st.1, st.2 ||| (inBit <<< ((i - 1) / 2)))) 0 64 (0, 0)

/-- `fromBitInterleaving` (KeccakP-1600-reference32BI.c:71-88): the words `*low` and `*high`. -/
def fromBitInterleaving (even odd : Word) : Word × Word :=
  loopFrom (fun i st =>
    let inBit : Word := if i % 2 = 0 then (even >>> (i / 2)) &&& 1 else (odd >>> ((i - 1) / 2)) &&& 1
    if i < 32 then (st.1 ||| (inBit <<< i), st.2)
    else (st.1, st.2 ||| (inBit <<< (i - 32)))) 0 64 (0, 0)

/-- The inner loop of `KeccakP1600_InitializeRoundConstants` (KeccakP-1600-reference32BI.c:111-120), from the LFSR
state: `low`, `high` and the new LFSR state.  `LFSR86540` (lines 141-150) is the same text as in
KeccakP-1600-reference.c:96-105. -/
def initRoundConstant (LFSR : Byte) : Word × Word × Byte :=
  loopFrom (fun j st =>
    let bitPosition := 2 ^ j - 1
    let r := Ref.lfsr86540 st.2.2
    if r.1 then
      if bitPosition < 32 then (st.1 ^^^ ((1 : Word) <<< bitPosition), st.2.1, r.2)
      else (st.1, st.2.1 ^^^ ((1 : Word) <<< (bitPosition - 32)), r.2)
    else (st.1, st.2.1, r.2)) 0 7 (0, 0, LFSR)

/-- `KeccakP1600_InitializeRoundConstants` (KeccakP-1600-reference32BI.c:104-123): the table it fills. -/
def initializeRoundConstants : List (Word × Word) :=
  (loopFrom (fun _ st =>
    let r := initRoundConstant st.2
    (st.1 ++ [toBitInterleaving r.1 r.2.1], r.2.2)) 0 24 (([] : List (Word × Word)), (0x01 : Byte))).1

/-- `KeccakP1600_InitializeRhoOffsets` (KeccakP-1600-reference32BI.c:125-139): the table it fills.  The table is a
static variable, hence initially zero. -/
def initializeRhoOffsets : List Nat :=
  let T : Fin 25 → Nat := put (fun _ => 0) 0 0
  let r := loopFrom (fun t st =>
      let x := st.2.1
      let y := st.2.2
      let T := put st.1 (Fin.ofNat 25 (5 * y + x)) (((t + 1) * (t + 2) / 2) % 64)
      let newX := (0 * x + 1 * y) % 5
      let newY := (2 * x + 3 * y) % 5
      (T, newX, newY)) 0 24 (T, 1, 0)
  (List.finRange 25).map r.1

/-- `KeccakRoundConstants`, the table (KeccakP-1600-reference32BI.c:154-180). -/
def roundConstants : List (Word × Word) := [
  (0x00000001, 0x00000000), (0x00000000, 0x00000089), (0x00000000, 0x8000008B), (0x00000000, 0x80008080),
  (0x00000001, 0x0000008B), (0x00000001, 0x00008000), (0x00000001, 0x80008088), (0x00000001, 0x80000082),
  (0x00000000, 0x0000000B), (0x00000000, 0x0000000A), (0x00000001, 0x00008082), (0x00000000, 0x00008003),
  (0x00000001, 0x0000808B), (0x00000001, 0x8000000B), (0x00000001, 0x8000008A), (0x00000001, 0x80000081),
  (0x00000000, 0x80000081), (0x00000000, 0x80000008), (0x00000000, 0x00000083), (0x00000000, 0x80008003),
  (0x00000001, 0x80008088), (0x00000000, 0x80000088), (0x00000001, 0x00008000), (0x00000000, 0x80008082)]

/-- `KeccakRhoOffsets`, the table (KeccakP-1600-reference32BI.c:182-185). -/
def rhoOffsets : List Nat :=
  [0, 1, 62, 28, 27, 36, 44, 6, 55, 20, 3, 10, 43, 25, 39, 41, 45, 15, 21, 8, 18, 2, 61, 56, 14]

/-- `index(x, y, z)` (KeccakP-1600-reference32BI.c:438), `z` being 0 or 1. -/
def index (x y : Nat) (z : Fin 2) : Fin 50 := ⟨(x % 5 + 5 * (y % 5)) * 2 + z.val, by omega⟩

/-- `ROL32(a, offset)` (KeccakP-1600-reference32BI.c:439), for `offset < 32`: a shift by 32 is undefined. -/
def rol32 (a : Word) (offset : Nat) : Word :=
  if offset ≠ 0 then (a <<< offset) ^^^ (a >>> (32 - offset)) else a

/-- `ROL64` (KeccakP-1600-reference32BI.c:441-451): `*outEven` and `*outOdd`.  With offset 63 it would shift by 32; see
`shifts_defined` for the offsets that occur. -/
def rol64 (inEven inOdd : Word) (offset : Nat) : Word × Word :=
  if offset % 2 = 0 then (rol32 inEven (offset / 2), rol32 inOdd (offset / 2))
  else (rol32 inOdd ((offset + 1) / 2), rol32 inEven ((offset - 1) / 2))

/-- `theta`, the first loop: `C[x][z]` (KeccakP-1600-reference32BI.c:458-464). -/
def thetaC (A : Words) (x : Nat) (z : Fin 2) : Word := loopFrom (fun y c => c ^^^ A (index x y z)) 0 5 0

/-- `theta`, the second loop: `D[x][z]` (KeccakP-1600-reference32BI.c:465-469). -/
def thetaD (A : Words) (x : Nat) (z : Fin 2) : Word :=
  let r := rol64 (thetaC A ((x + 1) % 5) 0) (thetaC A ((x + 1) % 5) 1) 1
  (if z = 0 then r.1 else r.2) ^^^ thetaC A ((x + 4) % 5) z

/-- `for(z=0; z<2; z++)`. -/
def loopZ {σ : Type} (f : Fin 2 → σ → σ) (s : σ) : σ := f 1 (f 0 s)

/-- `theta` (KeccakP-1600-reference32BI.c:453-474).  The arrays `C` and `D` are computed before the state is
modified. -/
def theta (A : Words) : Words :=
  loopFrom (fun x B => loopFrom (fun y B => loopZ (fun z B =>
    put B (index x y z) (B (index x y z) ^^^ thetaD A x z)) B) 0 5 B) 0 5 A

/-- `rho` (KeccakP-1600-reference32BI.c:476-482), for a given table of offsets.  The arguments of `ROL64` are
evaluated before the outputs are written. -/
def rho (offsets : List Nat) (A : Words) : Words :=
  loopFrom (fun x B => loopFrom (fun y B =>
    let r := rol64 (B (index x y 0)) (B (index x y 1)) (offsets.getD (5 * y + x) 0)
    put (put B (index x y 0) r.1) (index x y 1) r.2) 0 5 B) 0 5 A

/-- `pi` (KeccakP-1600-reference32BI.c:484-493). -/
def pi (A : Words) : Words :=
  let tempA := loopFrom (fun x T => loopFrom (fun y T => loopZ (fun z T =>
    put T (index x y z) (A (index x y z))) T) 0 5 T) 0 5 (fun _ => 0)
  loopFrom (fun x B => loopFrom (fun y B => loopZ (fun z B =>
    put B (index (0 * x + 1 * y) (2 * x + 3 * y) z) (tempA (index x y z))) B) 0 5 B) 0 5 A

/-- `chi` (KeccakP-1600-reference32BI.c:495-508). -/
def chi (A : Words) : Words :=
  loopFrom (fun y B =>
    let C := fun x z => B (index x y z) ^^^ (~~~ B (index (x + 1) y z) &&& B (index (x + 2) y z))
    loopFrom (fun x B' => loopZ (fun z B' => put B' (index x y z) (C x z)) B') 0 5 B) 0 5 A

/-- `iota` (KeccakP-1600-reference32BI.c:510-514), for a given table of constants. -/
def iota (rc : List (Word × Word)) (A : Words) (indexRound : Nat) : Words :=
  let A := put A (index 0 0 0) (A (index 0 0 0) ^^^ (rc.getD indexRound (0, 0)).1)
  put A (index 0 0 1) (A (index 0 0 1) ^^^ (rc.getD indexRound (0, 0)).2)

/-- The body of the loop of `KeccakP1600_PermutationOnWords` (KeccakP-1600-reference32BI.c:411-431). -/
def round (rc : List (Word × Word)) (offsets : List Nat) (A : Words) (indexRound : Nat) : Words :=
  iota rc (chi (pi (rho offsets (theta A)))) indexRound

/-- `KeccakP1600_PermutationOnWords` (KeccakP-1600-reference32BI.c:398-436); `nrRounds` at most 24 (otherwise the loop
index wraps around and nothing is done). -/
def onWords (rc : List (Word × Word)) (offsets : List Nat) (A : Words) (nrRounds : Nat) : Words :=
  loopFrom (fun i A => round rc offsets A i) (24 - nrRounds) nrRounds A

/-- `KeccakP1600_Permute_Nrounds` (KeccakP-1600-reference32BI.c:340-357), with the static tables. -/
def permuteNrounds (nrounds : Nat) (A : Words) : Words := onWords roundConstants rhoOffsets A nrounds

/-- `KeccakP1600_Permute_Nrounds` when compiled with `KeccakReference`: the tables are those filled by
`KeccakP1600_StaticInitialize` (KeccakP-1600-reference32BI.c:98-102). -/
def permuteNroundsKR (nrounds : Nat) (A : Words) : Words :=
  onWords initializeRoundConstants initializeRhoOffsets A nrounds

/-- `KeccakP1600_Permute_12rounds` (KeccakP-1600-reference32BI.c:360-377). -/
def permute12 (A : Words) : Words := permuteNrounds 12 A

/-- `KeccakP1600_Permute_24rounds` (KeccakP-1600-reference32BI.c:379-396). -/
def permute24 (A : Words) : Words := permuteNrounds 24 A

/-! ## byte access -/

/-- `KeccakP1600_Initialize` (KeccakP-1600-reference32BI.c:191-194). -/
def initState : Words := fun _ => 0

/-- `laneAsBytes[j] | ... << 8 | ... << 16 | ... << 24` (e.g. KeccakP-1600-reference32BI.c:222-225). -/
def word (b : Bytes) (j : Nat) : Word :=
  (b.getD j 0).setWidth 32 ||| ((b.getD (j + 1) 0).setWidth 32 <<< 8) ||| ((b.getD (j + 2) 0).setWidth 32 <<< 16)
    ||| ((b.getD (j + 3) 0).setWidth 32 <<< 24)

/-- The four bytes of a word, as in KeccakP-1600-reference32BI.c:524-527. -/
def bytes (w : Word) : Bytes :=
  [(w &&& 0xFF).setWidth 8, ((w >>> 8) &&& 0xFF).setWidth 8, ((w >>> 16) &&& 0xFF).setWidth 8,
    ((w >>> 24) &&& 0xFF).setWidth 8]

/-- The guard `(lanePosition < 25) && (offset < 8) && (offset+length <= 8)` of the functions on bytes in a lane
(e.g. KeccakP-1600-reference32BI.c:215).  The sum does not wrap around: `length` is at most 8 in all calls. -/
def guard (lanePosition offset length : Nat) : Bool := lanePosition < 25 && offset < 8 && offset + length ≤ 8

/-- `KeccakP1600_AddBytesInLane` (KeccakP-1600-reference32BI.c:213-234). -/
def addBytesInLane (A : Words) (lanePosition : Nat) (data : Bytes) (offset length : Nat) : Option Words :=
  if guard lanePosition offset length then do
    let d ← SnP.readBuf data length
    let laneAsBytes := Bytes.setAt (List.replicate 8 0) offset d
    let lane := toBitInterleaving (word laneAsBytes 0) (word laneAsBytes 4)
    let a ← getWord A (lanePosition * 2 + 0)
    let A ← setWord A (lanePosition * 2 + 0) (a ^^^ lane.1)
    let a ← getWord A (lanePosition * 2 + 1)
    setWord A (lanePosition * 2 + 1) (a ^^^ lane.2)
  else some A

/-- `KeccakP1600_AddBytes` (KeccakP-1600-reference32BI.c:236-255). -/
def addBytes (A : Words) (data : Bytes) (offset length : Nat) : Option Words :=
  Relaned.writeLoop 8 addBytesInLane (length + 1) A (offset / 8) (offset % 8) data length

/-- `KeccakP1600_AddByte` (KeccakP-1600-reference32BI.c:200-209). -/
def addByte (A : Words) (b : Byte) (offset : Nat) : Option Words := addBytes A [b] offset 1

/-- `laneAsBytes` in `KeccakP1600_ExtractBytesInLane` (KeccakP-1600-reference32BI.c:521-531). -/
def laneBytes (A : Words) (lanePosition : Nat) : Option Bytes := do
  let e ← getWord A (lanePosition * 2)
  let o ← getWord A (lanePosition * 2 + 1)
  let lane := fromBitInterleaving e o
  some (bytes lane.1 ++ bytes lane.2)

/-- `KeccakP1600_ExtractBytesInLane` (KeccakP-1600-reference32BI.c:518-534): the bytes written. -/
def extractBytesInLane (A : Words) (lanePosition offset length : Nat) : Option Bytes :=
  if guard lanePosition offset length then do
    let laneAsBytes ← laneBytes A lanePosition
    some (Bytes.slice laneAsBytes offset length)
  else some []

/-- `KeccakP1600_OverwriteBytesInLane` (KeccakP-1600-reference32BI.c:261-282). -/
def overwriteBytesInLane (A : Words) (lanePosition : Nat) (data : Bytes) (offset length : Nat) : Option Words :=
  if guard lanePosition offset length then do
    let laneAsBytes ← extractBytesInLane A lanePosition 0 8
    let d ← SnP.readBuf data length
    let laneAsBytes := Bytes.setAt laneAsBytes offset d
    let lane := toBitInterleaving (word laneAsBytes 0) (word laneAsBytes 4)
    let A ← setWord A (lanePosition * 2 + 0) lane.1
    setWord A (lanePosition * 2 + 1) lane.2
  else some A

/-- `KeccakP1600_OverwriteBytes` (KeccakP-1600-reference32BI.c:284-303). -/
def overwriteBytes (A : Words) (data : Bytes) (offset length : Nat) : Option Words :=
  Relaned.writeLoop 8 overwriteBytesInLane (length + 1) A (offset / 8) (offset % 8) data length

/-- The loop of `KeccakP1600_OverwriteWithZeroes` (KeccakP-1600-reference32BI.c:316-327); running out of fuel means
that it does not terminate. -/
def zeroLoop : Nat → Words → Nat → Nat → Option Words
  | 0, _, _, _ => none
  | fuel + 1, A, lanePosition, byteCount =>
    if byteCount > 0 then
      if byteCount < 8 then do
        let A ← overwriteBytesInLane A lanePosition (List.replicate 8 0) 0 byteCount
        zeroLoop fuel A lanePosition 0
      else do
        let A ← setWord A (lanePosition * 2 + 0) 0
        let A ← setWord A (lanePosition * 2 + 1) 0
        zeroLoop fuel A (lanePosition + 1) (byteCount - 8)
    else some A

/-- `KeccakP1600_OverwriteWithZeroes` (KeccakP-1600-reference32BI.c:307-328). -/
def overwriteWithZeroes (A : Words) (byteCount : Nat) : Option Words := zeroLoop (byteCount + 1) A 0 byteCount

/-- `KeccakP1600_ExtractBytes` (KeccakP-1600-reference32BI.c:536-555). -/
def extractBytes (A : Words) (offset length : Nat) : Option Bytes :=
  Relaned.readLoop 8 (extractBytesInLane A) (length + 1) (offset / 8) (offset % 8) length

/-- `KeccakP1600_ExtractAndAddBytesInLane` (KeccakP-1600-reference32BI.c:559-569). -/
def extractAndAddBytesInLane (A : Words) (lanePosition : Nat) (input : Bytes) (offset length : Nat) : Option Bytes :=
  if guard lanePosition offset length then do
    let laneAsBytes ← extractBytesInLane A lanePosition offset length
    let d ← SnP.readBuf input length
    some (Bytes.xor d laneAsBytes)
  else some []

/-- `KeccakP1600_ExtractAndAddBytes` (KeccakP-1600-reference32BI.c:571-591). -/
def extractAndAddBytes (A : Words) (input : Bytes) (offset length : Nat) : Option Bytes :=
  Relaned.xorLoop 8 (extractAndAddBytesInLane A) (length + 1) (offset / 8) (offset % 8) input length

/-- The byte access functions (KeccakP-1600-reference32BI.c:191-328, 518-591). -/
def access : Access Words where
  init := initState
  addByte := addByte
  addBytes := addBytes
  overwriteBytes := overwriteBytes
  overwriteWithZeroes := overwriteWithZeroes
  extractBytes := extractBytes
  extractAndAddBytes := extractAndAddBytes

end Ref32

end KeccakP1600
