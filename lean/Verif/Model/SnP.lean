import Verif.Base.Bytes

/-!
# The state-and-permutation interface (SnP)

Models `doc/SnP-documentation.h` and `doc/Low level model/src/SnP.cpp` (lines 48-144): a state is an
array of `width` bytes, accessed through `AddByte`, `AddBytes`, `OverwriteBytes`,
`OverwriteWithZeroes`, `ExtractBytes`, `ExtractAndAddBytes` and `Permute`.

The documented preconditions `offset + length ≤ width` are checked by the model and violating them
gives `none` (undefined behaviour in C: out-of-bounds access).
-/

/-- An SnP implementation seen at byte level.
`permute` stands for the macro `SnP_Permute` of `KeccakSponge.c:29-84` / `TurboSHAKE.c:26`;
`fast` is the optional `SnP_FastLoop_Absorb` (`KeccakSponge.c:85-87`, `TurboSHAKE.c:27-29`): it takes
the state, the number of lanes per block and the data, and returns the new state and the number of
bytes processed. -/
structure SnP where
  /-- state width in bytes (`SnP_width/8`) -/
  width : Nat
  permute : Bytes → Bytes
  fast : Option (Bytes → Nat → Bytes → Bytes × Nat)

namespace SnP

/-- lane size in bytes: `SnP_width/200` with `SnP_width` in bits (KeccakSponge.inc:54,165). -/
def laneBytes (P : SnP) : Nat := P.width * 8 / 200

/-- `SnP_Initialize` (SnP.cpp:48-51): the all-zero state. -/
def init (P : SnP) : Bytes := Bytes.zeros P.width

/-- `SnP_AddByte` (SnP.cpp:53-59). -/
def addByte (s : Bytes) (b : Byte) (offset : Nat) : Option Bytes :=
  if offset < s.length then some (Bytes.xorAt s offset [b]) else none

/-- `SnP_AddBytes` (SnP.cpp:61-71); the documented `offset < width` is only required when at least one
byte is added, as in the C implementations. -/
def addBytes (s : Bytes) (data : Bytes) (offset : Nat) : Option Bytes :=
  if offset + data.length ≤ s.length then some (Bytes.xorAt s offset data) else none

/-- `SnP_OverwriteBytes` (SnP.cpp:73-83). -/
def overwriteBytes (s : Bytes) (data : Bytes) (offset : Nat) : Option Bytes :=
  if offset + data.length ≤ s.length then some (Bytes.setAt s offset data) else none

/-- `SnP_OverwriteWithZeroes` (SnP.cpp:85-93). -/
def overwriteWithZeroes (s : Bytes) (byteCount : Nat) : Option Bytes :=
  if byteCount ≤ s.length then some (Bytes.setAt s 0 (Bytes.zeros byteCount)) else none

/-- `SnP_ExtractBytes` (SnP.cpp:108-118). -/
def extractBytes (s : Bytes) (offset length : Nat) : Option Bytes :=
  if offset + length ≤ s.length then some (Bytes.slice s offset length) else none

/-- `SnP_ExtractAndAddBytes` (SnP.cpp:120-130); `input` holds the `length` input bytes. -/
def extractAndAddBytes (s : Bytes) (input : Bytes) (offset : Nat) : Option Bytes :=
  if offset + input.length ≤ s.length then
    some (Bytes.xor input (Bytes.slice s offset input.length)) else none

/-- Reading `n` bytes through a pointer into a caller buffer of which `cur` is what remains from the
pointer on; reading past the end is undefined behaviour. -/
def readBuf (cur : Bytes) (n : Nat) : Option Bytes :=
  if n ≤ cur.length then some (cur.take n) else none

/-- The documented contract of `SnP_FastLoop_Absorb` (SnP-documentation.h:172-184, SnP.cpp:132-144): add
successive blocks of `laneCount` lanes and permute, until less than a block remains. Here `blk` is the
block size in bytes and `n` the number of whole blocks. -/
def absorbBlocks (f : Bytes → Bytes) (blk : Nat) : Nat → Bytes → Bytes → Bytes
  | 0, s, _ => s
  | n + 1, s, data => absorbBlocks f blk n (f (Bytes.xorAt s 0 (data.take blk))) (data.drop blk)

/-- What a mode may assume about an SnP implementation: the permutation preserves the state size, the
lane size is not zero, and a fast loop, if there is one, obeys its documented contract.  The contract is
*proved* for the portable fast loops in `Verif/Props/KeccakPOpt`. -/
structure Valid (P : SnP) : Prop where
  permute_len : ∀ s : Bytes, s.length = P.width → (P.permute s).length = P.width
  fast_ok : ∀ F, P.fast = some F → ∀ (s : Bytes) (laneCount : Nat) (data : Bytes),
    s.length = P.width → 0 < laneCount * P.laneBytes → laneCount * P.laneBytes ≤ P.width →
    F s laneCount data =
      (absorbBlocks P.permute (laneCount * P.laneBytes)
          (data.length / (laneCount * P.laneBytes)) s data,
       data.length / (laneCount * P.laneBytes) * (laneCount * P.laneBytes))

end SnP
