import Verif.Model.KeccakArmv8Asm
import Verif.Model.XoodooArm

/-!
# Keccak-p[1600] in ARMv7-A NEON assembly

Models `lib/low/KeccakP-1600/ARMv7A-NEON/KeccakP-1600-armv7a-le-neon-gcc.s` ("s" below), instruction by instruction.  The `armcc` file is the same
program in the syntax of another assembler.  `LoopUnroll` is 1 (s:33) and the part within `.if 0` (s:656 to the end of the file) is not assembled.

* The registers `d0`-`d31` are a function from the number of the register; `qk` is the pair of `d(2k)` and `d(2k+1)`.  The meaning of the
  instructions is taken from the ARMv7-A manual and is part of the trusted base.
* In the permutation the state is an array of 25 lanes, used also as temporary storage.  `r0` is the distance in bytes from its start, which is aligned
  to 32 bytes (KeccakP-1600-SnP.h:28); an access that is outside of the state, or that has not the alignment given in the instruction, gives `none`.
* The pointer `r1` to the round constants is the distance in bytes from the start of the table; a read outside of the table gives `none`.
* In the functions on bytes the state is a list of 200 bytes; the other buffers are lists of bytes that do not overlap with the state.  A read or write
  outside of a buffer gives `none`.  `ldr` and `str` may be unaligned, as they may in ARMv7-A unless the operating system forbids it.
* `unsigned int` and the counters have 32 bits; running out of fuel gives `none`.
* Saving the registers of the caller is not modelled.
-/

namespace KeccakNeon

open KeccakP1600 (Lane Lanes wordOfBytes)
open Armv8Asm (sriElem)
open XoodooArm (sub32 add32 blockLoop tailLoop unlessZero ldrb strb Wr Ex Ea addOne overwriteOne extractOne extractAddOne)
open Simd32 (loadWord storeWord)

/-- The registers `d0`-`d31`, the lanes in memory, and the pointers to the state and to the constants. -/
structure M where
  d : Nat → Lane
  s : Nat → Lane
  (r0 r1 : Nat)

/-- A register is written. -/
def M.set (m : M) (i : Nat) (v : Lane) : M := { m with d := fun j => if j = i then v else m.d j }

/-- A lane in memory is written. -/
def M.put (m : M) (i : Nat) (v : Lane) : M := { m with s := fun j => if j = i then v else m.s j }

/-- `veor.64 dd, dn, dm`. -/
def veorD (d n k : Nat) (m : M) : M := m.set d (m.d n ^^^ m.d k)

/-- `veor.64 qd, qn, qm`. -/
def veorQ (d n k : Nat) (m : M) : M :=
  (m.set (2 * d) (m.d (2 * n) ^^^ m.d (2 * k))).set (2 * d + 1) (m.d (2 * n + 1) ^^^ m.d (2 * k + 1))

/-- `vbic.64 dd, dn, dm`: the bits of `dn` that are not in `dm`. -/
def vbicD (d n k : Nat) (m : M) : M := m.set d (m.d n &&& ~~~ m.d k)

/-- `vbic.64 qd, qn, qm`. -/
def vbicQ (d n k : Nat) (m : M) : M :=
  (m.set (2 * d) (m.d (2 * n) &&& ~~~ m.d (2 * k))).set (2 * d + 1) (m.d (2 * n + 1) &&& ~~~ m.d (2 * k + 1))

/-- `vadd.u64 dd, dn, dm`. -/
def vaddD (d n k : Nat) (m : M) : M := m.set d (m.d n + m.d k)

/-- `vsri.64 dd, dm, #k`: the upper `k` bits of `dd` are kept. -/
def vsriD (d n k : Nat) (m : M) : M := m.set d (sriElem (m.d d) (m.d n) k)

/-- `vshl.u64 dd, dm, #k`. -/
def vshlD (d n k : Nat) (m : M) : M := m.set d (m.d n <<< k)

/-- `vext.8 dd, dn, dm, #i`: the bytes of `dn` from `i` on and then those of `dm`. -/
def vextD (d n k i : Nat) (m : M) : M := m.set d ((m.d n >>> (8 * i)) ||| (m.d k <<< (64 - 8 * i)))

/-- `vmov dd, dm`. -/
def vmovD (d n : Nat) (m : M) : M := m.set d (m.d n)

/-- `vmov qd, qm`. -/
def vmovQ (d n : Nat) (m : M) : M := (m.set (2 * d) (m.d (2 * n))).set (2 * d + 1) (m.d (2 * n + 1))

/-- `!` after an access, and `add`. -/
def addR0 (n : Nat) (m : M) : M := { m with r0 := m.r0 + n }

/-- `sub r0, r0, #n`; the pointer stays within the state. -/
def subR0 (n : Nat) (m : M) : M := { m with r0 := m.r0 - n }

/-- `vld1.64 dn, [r0:64]`. -/
def vld1D (n : Nat) (m : M) : Option M :=
  if m.r0 % 8 = 0 ∧ m.r0 + 8 ≤ 200 then some (m.set n (m.s (m.r0 / 8))) else none

/-- `vst1.64 dn, [r0:64]`. -/
def vst1D (n : Nat) (m : M) : Option M :=
  if m.r0 % 8 = 0 ∧ m.r0 + 8 ≤ 200 then some (m.put (m.r0 / 8) (m.d n)) else none

/-- `vld1.64 { qn }, [r0:128]`. -/
def vld1Q (n : Nat) (m : M) : Option M :=
  if m.r0 % 16 = 0 ∧ m.r0 + 16 ≤ 200 then some ((m.set (2 * n) (m.s (m.r0 / 8))).set (2 * n + 1) (m.s (m.r0 / 8 + 1))) else none

/-- `vst1.64 { qn }, [r0:128]`. -/
def vst1Q (n : Nat) (m : M) : Option M :=
  if m.r0 % 16 = 0 ∧ m.r0 + 16 ≤ 200 then some ((m.put (m.r0 / 8) (m.d (2 * n))).put (m.r0 / 8 + 1) (m.d (2 * n + 1))) else none

/-- The constants from `KeccakP1600_Permute_RoundConstants24` to `..._RoundConstants0` (s:526-552); the labels `...24`, `...12` and `...0` have the
distances 0, 96 and 192 from the start. -/
def roundConstants : List Lane := [
  0x0000000000000001, 0x0000000000008082, 0x800000000000808a, 0x8000000080008000, 0x000000000000808b, 0x0000000080000001,
  0x8000000080008081, 0x8000000000008009, 0x000000000000008a, 0x0000000000000088, 0x0000000080008009, 0x000000008000000a,
  0x000000008000808b, 0x800000000000008b, 0x8000000000008089, 0x8000000000008003, 0x8000000000008002, 0x8000000000000080,
  0x000000000000800a, 0x800000008000000a, 0x8000000080008081, 0x8000000000008080, 0x0000000080000001, 0x8000000080008008]

/-- `vld1.64 dn, [r1:64]!`. -/
def vld1Rc (n : Nat) (m : M) : Option M := do
  let w ← if m.r1 % 8 = 0 then roundConstants[m.r1 / 8]? else none
  some { m.set n w with r1 := m.r1 + 8 }

/-- `vld1.64 dn, [r0:64]!` for several registers. -/
def loads : List Nat → M → Option M
  | [], m => some m
  | n :: ns, m => do
    let m ← vld1D n m
    loads ns (addR0 8 m)

/-- `vst1.64 dn, [r0:64]!` for several registers. -/
def stores : List Nat → M → Option M
  | [], m => some m
  | n :: ns, m => do
    let m ← vst1D n m
    stores ns (addR0 8 m)

/-- The macro `LoadState` (s:64-89). -/
def loadState (m : M) : Option M := do
  let m ← loads [0, 2, 4, 6, 8, 1, 3, 5, 7, 9, 10, 12, 14, 16, 18, 11, 13, 15, 17, 19] m
  let m ← vld1Q 10 m
  let m := addR0 16 m
  let m ← vld1Q 11 m
  let m := addR0 16 m
  let m ← vld1D 24 m
  some (subR0 (24 * 8) m)

/-- The macro `StoreState` (s:91-115). -/
def storeState (m : M) : Option M := do
  let m ← stores [0, 2, 4, 6, 8, 1, 3, 5, 7, 9, 10, 12, 14, 16, 18, 11, 13, 15, 17, 19] m
  let m ← vst1Q 10 m
  let m := addR0 16 m
  let m ← vst1Q 11 m
  let m := addR0 16 m
  vst1D 24 m

/-- The first instruction for each of the four rotations of `RhoPi4` (s:118-137). -/
def rot1 (dst src rot : Nat) (m : M) : M :=
  if rot % 8 ≠ 0 then vshlD dst src rot m else vextD dst src src (8 - rot / 8) m

/-- The second instruction for each of the four rotations of `RhoPi4` (s:138-149). -/
def rot2 (dst src rot : Nat) (m : M) : M :=
  if rot % 8 ≠ 0 then vsriD dst src (64 - rot) m else m

/-- The macro `RhoPi4` (s:117-150). -/
def rhoPi4 (dst1 src1 r1 dst2 src2 r2 dst3 src3 r3 dst4 src4 r4 : Nat) (m : M) : M :=
  let m := rot1 dst1 src1 r1 m
  let m := rot1 dst2 src2 r2 m
  let m := rot1 dst3 src3 r3 m
  let m := rot1 dst4 src4 r4 m
  let m := rot2 dst1 src1 r1 m
  let m := rot2 dst2 src2 r2 m
  let m := rot2 dst3 src3 r3 m
  rot2 dst4 src4 r4 m

/-- `KeccakRound`, "Prepare Theta" (s:154-175). -/
def prepTheta (m : M) : Option M := do
  let m := veorQ 13 0 5 m
  let m ← vst1Q 12 m
  let m := addR0 16 m
  let m := veorQ 14 1 6 m
  let m ← vst1Q 4 m
  let m := addR0 16 m
  let m := veorD 26 26 27 m
  let m ← vst1Q 9 m
  let m := veorD 28 28 29 m
  let m := veorD 26 26 20 m
  let m := veorD 27 28 21 m
  let m := veorQ 14 2 7 m
  let m := veorQ 15 3 8 m
  let m := veorQ 4 4 9 m
  let m := veorD 28 28 29 m
  let m := veorD 30 30 31 m
  let m := veorD 25 8 9 m
  let m := veorD 28 28 22 m
  let m := veorD 29 30 23 m
  let m := veorD 25 25 24 m
  some (subR0 32 m)

/-- `KeccakRound`, "Apply Theta" (s:176-222). -/
def applyTheta (m : M) : Option M := do
  let m := vaddD 30 27 27 m
  let m := vaddD 24 28 28 m
  let m := vaddD 8 29 29 m
  let m := vaddD 18 25 25 m
  let m := vsriD 30 27 63 m
  let m := vsriD 24 28 63 m
  let m := vsriD 8 29 63 m
  let m := vsriD 18 25 63 m
  let m := veorD 30 30 25 m
  let m := veorD 24 24 26 m
  let m := veorD 8 8 27 m
  let m := vaddD 27 26 26 m
  let m := veorD 18 18 28 m
  let m := vmovD 31 30 m
  let m := vmovD 25 24 m
  let m := vsriD 27 26 63 m
  let m := vmovD 9 8 m
  let m := vmovD 19 18 m
  let m := veorD 20 20 30 m
  let m := veorD 21 21 24 m
  let m := veorD 27 27 29 m
  let m := veorD 22 22 8 m
  let m := veorD 23 23 18 m
  let m := vmovD 26 27 m
  let m := veorQ 0 0 15 m
  let m := veorQ 1 1 12 m
  let m := veorQ 2 2 4 m
  let m := veorQ 3 3 9 m
  let m := veorQ 5 5 15 m
  let m := veorQ 6 6 12 m
  let m ← vld1Q 12 m
  let m := addR0 16 m
  let m := veorQ 7 7 4 m
  let m ← vld1Q 4 m
  let m := addR0 16 m
  let m := veorQ 8 8 9 m
  let m ← vld1Q 9 m
  let m := veorD 24 24 26 m
  let m := subR0 32 m
  let m := veorQ 4 4 13 m
  some (veorQ 9 9 13 m)

/-- `KeccakRound`, "Rho Pi" (s:223-235). -/
def rhoPi (m : M) : M :=
  let m := vmovD 27 2 m
  let m := vmovD 28 4 m
  let m := vmovD 29 6 m
  let m := vmovD 25 8 m
  let m := rhoPi4 2 3 44 4 14 43 8 24 14 6 17 21 m
  let m := rhoPi4 3 9 20 14 16 25 24 21 2 17 15 15 m
  let m := rhoPi4 9 22 61 16 19 8 21 7 55 15 12 10 m
  let m := rhoPi4 22 18 39 19 23 56 7 13 45 12 5 6 m
  let m := rhoPi4 18 20 18 23 11 41 13 1 36 5 10 3 m
  rhoPi4 20 28 62 11 25 27 1 29 28 10 27 1 m

/-- `KeccakRound`, "Chi b+g" and "Chi k+m" (s:236-263). -/
def chiPlanes (m : M) : M :=
  let m := vmovQ 13 0 m
  let m := vbicQ 15 2 1 m
  let m := veorQ 0 0 15 m
  let m := vmovQ 14 1 m
  let m := vbicQ 15 3 2 m
  let m := veorQ 1 1 15 m
  let m := vbicQ 15 4 3 m
  let m := veorQ 2 2 15 m
  let m := vbicQ 15 13 4 m
  let m := vbicQ 13 14 13 m
  let m := veorQ 3 3 15 m
  let m := veorQ 4 4 13 m
  let m := vmovQ 13 5 m
  let m := vbicQ 15 7 6 m
  let m := veorQ 5 5 15 m
  let m := vmovQ 14 6 m
  let m := vbicQ 15 8 7 m
  let m := veorQ 6 6 15 m
  let m := vbicQ 15 9 8 m
  let m := veorQ 7 7 15 m
  let m := vbicQ 15 13 9 m
  let m := vbicQ 13 14 13 m
  let m := veorQ 8 8 15 m
  veorQ 9 9 13 m

/-- `KeccakRound`, "Chi s" with iota (s:264-275). -/
def chiIota (m : M) : Option M := do
  let m := vmovQ 13 10 m
  let m := vbicD 30 22 21 m
  let m := vbicD 31 23 22 m
  let m := veorQ 10 10 15 m
  let m := vbicD 30 24 23 m
  let m := vbicD 31 26 24 m
  let m := vbicD 26 27 26 m
  let m := veorQ 11 11 15 m
  let m ← vld1Rc 30 m
  let m := veorD 24 24 26 m
  some (veorD 0 0 30 m)

/-- The macro `KeccakRound` (s:152-276). -/
def keccakRound (m : M) : Option M := do
  let m ← prepTheta m
  let m ← applyTheta m
  chiIota (chiPlanes (rhoPi m))

/-- `KeccakP1600_Permute_RoundLoop` (s:613-636); `r2` is the counter. -/
def roundLoop : Nat → Nat → M → Option M
  | 0, _, _ => none
  | fuel + 1, r2, m => do
    let m ← keccakRound m
    let r2 := sub32 r2 1
    if r2 ≠ 0 then roundLoop fuel r2 m else some m

/-- The lanes of the state in memory. -/
def memOf (st : Bytes) (i : Nat) : Lane := wordOfBytes (st.drop (8 * i))

/-- `KeccakP1600_Permute` (s:646-653); `d` is what the registers contain before. -/
def permute (d : Nat → Lane) (st : Bytes) (r1 r2 : Nat) : Option Bytes := do
  let m ← loadState ⟨d, memOf st, 0, r1⟩
  let m ← roundLoop (2 ^ 32) r2 m
  let m ← storeState m
  some (KeccakP1600.bytesOfLanes fun i => m.s i.val)

/-- `KeccakP1600_Permute_Nrounds` (s:492-496); an address before the table is undefined. -/
def permuteNrounds (d : Nat → Lane) (st : Bytes) (nrounds : Nat) : Option Bytes :=
  let r2 := nrounds
  if 192 < r2 * 2 ^ 3 then none else permute d st (192 - r2 * 2 ^ 3) r2

/-- `KeccakP1600_Permute_12rounds` (s:506-509). -/
def permute12 (d : Nat → Lane) (st : Bytes) : Option Bytes := permute d st 96 12

/-- `KeccakP1600_Permute_24rounds` (s:519-522). -/
def permute24 (d : Nat → Lane) (st : Bytes) : Option Bytes := permute d st 0 24

/-! ### Access to the bytes of the state -/

/-- `vstm` of `n` registers that contain 0, at the distance `a`. -/
def vstmZero (n : Nat) (st : Bytes) (a : Nat) : Option Bytes :=
  if a % 4 = 0 ∧ a + 8 * n ≤ st.length then some (Bytes.setAt st a (List.replicate (8 * n) 0)) else none

/-- `KeccakP1600_Initialize` (s:296-305). -/
def init (st : Bytes) : Option Bytes := do
  let st ← vstmZero 8 st 0
  let st ← vstmZero 8 st 64
  let st ← vstmZero 8 st 128
  vstmZero 1 st 192

/-- `KeccakP1600_AddByte` (s:315-319); KeccakP-1600-SnP.h has a macro that does the same. -/
def addByte (st : Bytes) (b : Byte) (offset : Nat) : Option Bytes := do
  let r3 ← ldrb st offset
  strb st offset (r3 ^^^ b)

/-- What the functions with an offset and a length have in common (s:332-334, 344-347, 353-354 and the same in the others): the loop over lanes, `adds r3, r3, #7` with `bcc`,
and the loop over bytes. -/
def stages {σ : Type} (lane byte : σ → Option σ) (s : σ) (n : Nat) : Option σ := do
  let st ← blockLoop 8 lane (2 ^ 32) s n
  if st.2 + 7 < 2 ^ 32 then some st.1 else tailLoop byte (2 ^ 32) st.1 (add32 st.2 7)

/-- The body of `KeccakP1600_AddBytes_LanesLoop` (s:335-343). -/
def addLane (data : Bytes) (s : Wr) : Option Wr := do
  let r2 ← loadWord s.st s.r0
  let r4 ← loadWord data s.r1
  let r12 ← loadWord s.st (s.r0 + 4)
  let lr ← loadWord data (s.r1 + 4)
  let r2 := r2 ^^^ r4
  let r12 := r12 ^^^ lr
  let st ← storeWord s.st s.r0 r2
  let st ← storeWord st (s.r0 + 4) r12
  some ⟨st, s.r0 + 4 + 4, s.r1 + 4 + 4⟩

/-- `KeccakP1600_AddBytes` (s:329-357); the body of the loop over bytes (s:349-352) is that of `Xoodoo_AddBytes` in `Model/XoodooArm.lean`. -/
def addBytes (st data : Bytes) (offset length : Nat) : Option Bytes := do
  some (← stages (addLane data) (addOne data) ⟨st, offset, 0⟩ length).st

/-- The body of `KeccakP1600_OverwriteBytes_LanesLoop` (s:371-375). -/
def overwriteLane (data : Bytes) (s : Wr) : Option Wr := do
  let r2 ← loadWord data s.r1
  let r12 ← loadWord data (s.r1 + 4)
  let st ← storeWord s.st s.r0 r2
  let st ← storeWord st (s.r0 + 4) r12
  some ⟨st, s.r0 + 4 + 4, s.r1 + 4 + 4⟩

/-- `KeccakP1600_OverwriteBytes` (s:366-387); the body of the loop over bytes (s:382-384) is that of `Xoodoo_OverwriteBytes`. -/
def overwriteBytes (st data : Bytes) (offset length : Nat) : Option Bytes := do
  some (← stages (overwriteLane data) (overwriteOne data) ⟨st, offset, 0⟩ length).st

/-- `KeccakP1600_OverwriteWithZeroes` (s:396-414). -/
def overwriteWithZeroes (st : Bytes) (byteCount : Nat) : Option Bytes := do
  let s ← unlessZero (vstmZero 1) 8 st 0 (byteCount / 8)
  let s ← unlessZero (fun st r0 => strb st r0 0) 1 s.1 s.2 (byteCount % 8)
  some s.1

/-- The body of `KeccakP1600_ExtractBytes_LanesLoop` (s:428-432). -/
def extractLane (st : Bytes) (s : Ex) : Option Ex := do
  let r2 ← loadWord st s.r0
  let r12 ← loadWord st (s.r0 + 4)
  some ⟨s.out ++ Xoodoo.bytesOfWord r2 ++ Xoodoo.bytesOfWord r12, s.r0 + 4 + 4⟩

/-- `KeccakP1600_ExtractBytes` (s:423-444); the body of the loop over bytes (s:438-440) is that of `Xoodoo_ExtractBytes`. -/
def extractBytes (st : Bytes) (offset length : Nat) : Option Bytes := do
  some (← stages (extractLane st) (extractOne st) ⟨[], offset⟩ length).out

/-- The body of `KeccakP1600_ExtractAndAddBytes_LanesLoop` (s:459-468). -/
def extractAddLane (st input : Bytes) (s : Ea) : Option Ea := do
  let r5 ← loadWord st s.r0
  let r4 ← loadWord input s.r1
  let out := s.out ++ Xoodoo.bytesOfWord (r5 ^^^ r4)
  let r5 ← loadWord st (s.r0 + 4)
  let r4 ← loadWord input (s.r1 + 4)
  some ⟨out ++ Xoodoo.bytesOfWord (r5 ^^^ r4), s.r0 + 4 + 4, s.r1 + 4 + 4⟩

/-- `KeccakP1600_ExtractAndAddBytes` (s:453-483); the body of the loop over bytes (s:474-477) is that of `Xoodoo_ExtractAndAddBytes`. -/
def extractAndAddBytes (st input : Bytes) (offset length : Nat) : Option Bytes := do
  some (← stages (extractAddLane st input) (extractAddOne st input) ⟨[], offset, 0⟩ length).out

/-- The functions that access the bytes of a state. -/
def access : Access Bytes where
  init := (KeccakNeon.init (List.replicate 200 0)).getD []
  addByte := KeccakNeon.addByte
  addBytes := KeccakNeon.addBytes
  overwriteBytes := KeccakNeon.overwriteBytes
  overwriteWithZeroes := KeccakNeon.overwriteWithZeroes
  extractBytes := KeccakNeon.extractBytes
  extractAndAddBytes := KeccakNeon.extractAndAddBytes

end KeccakNeon
