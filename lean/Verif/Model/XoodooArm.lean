import Verif.Model.Xoodoo
import Verif.Model.Simd32

/-!
# Xoodoo, Xoofff and Xoodyak in 32-bit ARM assembly

Models `lib/low/Xoodoo/ARM/Xoodoo-uf-armv7m-le-gcc.s` ("s" below) and `Xoodyak-uf-armv7m-le-gcc.s` ("y" below) with
`Xoodoo-SnP.h` in the same directory.  The files `Xoodoo-uf-armv6-le-gcc.s` and `Xoodyak-uf-armv6-le-gcc.s` have the
same instructions; they differ in the directives and in the way of returning from a local routine (`ldr pc`).  The
`armcc` files are the same programs in the syntax of another assembler.

* A register file is a function from the number of the register; `lr` is register 14.  A macro of the assembler is a
  function of the numbers of its registers.
* The state, the mask and the accumulators are arrays of 12 words, read and written with `ldm` and `stm` or as words.  In
  the functions on bytes the state is a list of 48 bytes.  Other buffers are lists of bytes with an offset; a read or
  write outside of a buffer gives `none`.  Words are little endian.  Buffers do not overlap, except those of the functions
  for encryption and decryption.
* `size_t`, `unsigned int` and the counters have 32 bits; running out of fuel gives `none`.
* Pushing and popping the registers of the caller is not modelled; arguments kept on the stack are variables.
-/

namespace XoodooArm

open Xoodoo (Lane Lanes wordOfBytes bytesOfWord lanesOfBytes bytesOfLanes)
open Simd32 (loadWord storeWord)
open KeccakP1600 (put)

/-- The registers. -/
abbrev Regs := Nat → Lane

/-- A register is written. -/
def set (g : Regs) (d : Nat) (w : Lane) : Regs := fun q => if q = d then w else g q

/-- `eor d, n, m, ROR #rot`, also without rotation. -/
def eor (d n m rot : Nat) (g : Regs) : Regs := set g d (g n ^^^ (g m).rotateRight rot)

/-- `bic d, n, m, ROR #rot`. -/
def bic (d n m rot : Nat) (g : Regs) : Regs := set g d (g n &&& ~~~ (g m).rotateRight rot)

/-- `eor d, n, #c`. -/
def eorImm (d n : Nat) (c : Lane) (g : Regs) : Regs := set g d (g n ^^^ c)

/-- `ror d, n, #rot`. -/
def rorReg (d n rot : Nat) (g : Regs) : Regs := set g d ((g n).rotateRight rot)

/-- The amount `(32-(rot))%32` in the macros; the remainder is that of the assembler, which truncates towards zero. -/
def amount (rot : Int) : Nat := ((32 - rot).tmod 32).toNat

/-- `mXor3` (s:239-250, y:71-82); if a rotation is a multiple of 32, the instruction without rotation is used. -/
def mXor3 (ro a0 a1 a2 : Nat) (rho_e1 rho_e2 : Int) (g : Regs) : Regs :=
  let g := eor ro a0 a1 (if rho_e1.tmod 32 = 0 then 0 else amount rho_e1) g
  eor ro ro a2 (if rho_e2.tmod 32 = 0 then 0 else amount rho_e2) g

/-- `mRliXor` (s:252-258, y:84-90). -/
def mRliXor (ro ri : Nat) (rot : Int) (g : Regs) : Regs := eor ro ro ri (if rot.tmod 32 = 0 then 0 else amount rot) g

/-- `mRloXor` (s:260-266, y:92-98). -/
def mRloXor (ro ri : Nat) (rot : Int) (g : Regs) : Regs :=
  if rot.tmod 32 = 0 then eor ro ro ri 0 g else eor ro ri ro (amount rot) g

/-- `_r0` (s:195, y:27). -/
def _r0 : Int := 5
/-- `_r1` (s:196, y:28). -/
def _r1 : Int := 14
/-- `_w1` (s:199, y:31). -/
def _w1 : Nat := 11
/-- `_e1` (s:202, y:34). -/
def _e1 : Int := 8

/-- `mChi3` (s:268-275, y:100-107). -/
def mChi3 (a0 a1 a2 r0 r1 : Nat) (g : Regs) : Regs :=
  let g := bic r0 a2 a1 _w1 g
  let g := eor a0 a0 r0 (32 - _w1) g
  let g := bic r1 a0 a2 (32 - _w1) g
  let g := eor a1 a1 r1 0 g
  let g := bic r1 a1 a0 0 g
  eor a2 a2 r1 _w1 g

/-- Theta in `mRound` (s:279-302, y:111-134). -/
def mTheta (r6i r7i r8i r9i r10i r11i r12i lri : Nat) (rho_e1 rho_we2 : Int) (g : Regs) : Regs :=
  let g := mXor3 0 5 r9i lri rho_e1 rho_we2 g
  let g := mXor3 1 2 r6i r10i rho_e1 rho_we2 g
  let g := mRliXor 0 0 (_r1 - _r0) g
  let g := mRloXor 2 0 (32 - _r0) g
  let g := mRloXor r6i 0 (rho_e1 - _r0) g
  let g := mRloXor r10i 0 (rho_we2 - _r0) g
  let g := mXor3 0 3 r7i r11i rho_e1 rho_we2 g
  let g := mRliXor 1 1 (_r1 - _r0) g
  let g := mRloXor 3 1 (32 - _r0) g
  let g := mRloXor r7i 1 (rho_e1 - _r0) g
  let g := mRloXor r11i 1 (rho_we2 - _r0) g
  let g := mXor3 1 4 r8i r12i rho_e1 rho_we2 g
  let g := mRliXor 0 0 (_r1 - _r0) g
  let g := mRloXor 4 0 (32 - _r0) g
  let g := mRloXor r8i 0 (rho_e1 - _r0) g
  let g := mRloXor r12i 0 (rho_we2 - _r0) g
  let g := mRliXor 1 1 (_r1 - _r0) g
  let g := mRloXor 5 1 (32 - _r0) g
  let g := mRloXor r9i 1 (rho_e1 - _r0) g
  mRloXor lri 1 (rho_we2 - _r0) g

/-- Iota in `mRound` (s:306-312, y:138-144); one of the constants does not fit in an instruction. -/
def mIota (rc : Lane) (g : Regs) : Regs :=
  if rc = 0xc0000002 then eorImm 2 2 0xc0000000 (eorImm 2 2 0x00000002 g) else eorImm 2 2 rc g

/-- `mRound` (s:277-319, y:109-151). -/
def mRound (r6i r7i r8i r9i r6w r7w r8w r9w r10i r11i r12i lri : Nat) (rho_e1 rho_we2 : Int) (rc : Lane) (g : Regs) :
    Regs :=
  let g := mTheta r6i r7i r8i r9i r10i r11i r12i lri rho_e1 rho_we2 g
  let g := mIota rc g
  let g := mChi3 2 r6w r10i 0 1 g
  let g := mChi3 3 r7w r11i 0 1 g
  let g := mChi3 4 r8w r12i 0 1 g
  mChi3 5 r9w lri 0 1 g

/-- The round constants `_rc6x1`, ..., `_rc1x6` (s:217-222, y:49-54). -/
def rc6 : List Lane := [0x00000003, 0x0b000000, 0x07000000, 0x000f0000, 0x0000d000, 0x00000048]

/-- The round constants `_rc12x1`, ..., `_rc1x12` (s:224-235, y:56-67). -/
def rc12 : List Lane :=
  [0xc0000002, 0x0e000000, 0x07800000, 0x000d0000, 0x00009000, 0x00000050, 0x0000000c, 0x2c000000, 0x1c000000,
   0x003c0000, 0x00034000, 0x00000120]

/-- The rounds in `Xoodoo_Permute_6rounds` (s:333-338). -/
def rounds6 (g : Regs) : Regs :=
  let g := mRound 8 9 6 7  7 8 9 6  10 11 12 14  32 32 (rc6.getD 0 0) g
  let g := mRound 7 8 9 6  6 7 8 9  12 14 10 11  1 (_e1 + _w1) (rc6.getD 1 0) g
  let g := mRound 6 7 8 9  9 6 7 8  10 11 12 14  1 (_e1 + _w1) (rc6.getD 2 0) g
  let g := mRound 9 6 7 8  8 9 6 7  12 14 10 11  1 (_e1 + _w1) (rc6.getD 3 0) g
  let g := mRound 8 9 6 7  7 8 9 6  10 11 12 14  1 (_e1 + _w1) (rc6.getD 4 0) g
  mRound 7 8 9 6  6 7 8 9  12 14 10 11  1 (_e1 + _w1) (rc6.getD 5 0) g

/-- The rounds in `Xoodoo_Permute_12rounds` (s:367-378) and in `Xoodoo_Permute_12roundsAsm` (y:163-174). -/
def rounds12 (g : Regs) : Regs :=
  let g := mRound 6 7 8 9  9 6 7 8  10 11 12 14  32 32 (rc12.getD 0 0) g
  let g := mRound 9 6 7 8  8 9 6 7  12 14 10 11  1 (_e1 + _w1) (rc12.getD 1 0) g
  let g := mRound 8 9 6 7  7 8 9 6  10 11 12 14  1 (_e1 + _w1) (rc12.getD 2 0) g
  let g := mRound 7 8 9 6  6 7 8 9  12 14 10 11  1 (_e1 + _w1) (rc12.getD 3 0) g
  let g := mRound 6 7 8 9  9 6 7 8  10 11 12 14  1 (_e1 + _w1) (rc12.getD 4 0) g
  let g := mRound 9 6 7 8  8 9 6 7  12 14 10 11  1 (_e1 + _w1) (rc12.getD 5 0) g
  let g := mRound 8 9 6 7  7 8 9 6  10 11 12 14  1 (_e1 + _w1) (rc12.getD 6 0) g
  let g := mRound 7 8 9 6  6 7 8 9  12 14 10 11  1 (_e1 + _w1) (rc12.getD 7 0) g
  let g := mRound 6 7 8 9  9 6 7 8  10 11 12 14  1 (_e1 + _w1) (rc12.getD 8 0) g
  let g := mRound 9 6 7 8  8 9 6 7  12 14 10 11  1 (_e1 + _w1) (rc12.getD 9 0) g
  let g := mRound 8 9 6 7  7 8 9 6  10 11 12 14  1 (_e1 + _w1) (rc12.getD 10 0) g
  mRound 7 8 9 6  6 7 8 9  12 14 10 11  1 (_e1 + _w1) (rc12.getD 11 0) g

/-- The rotations after `n` rounds (s:340-351 and s:379-390, y:175-186). -/
def undo (n : Int) (g : Regs) : Regs :=
  let a : Nat := (32 - (n * _r0).tmod 32).toNat
  let b : Nat := (32 - (n * _r0 + 1).tmod 32).toNat
  let c : Nat := (32 - (n * _r0 + _e1 + _w1).tmod 32).toNat
  let g := rorReg 2 2 a g
  let g := rorReg 3 3 a g
  let g := rorReg 4 4 a g
  let g := rorReg 5 5 a g
  let g := rorReg 6 6 b g
  let g := rorReg 7 7 b g
  let g := rorReg 8 8 b g
  let g := rorReg 9 9 b g
  let g := rorReg 10 10 c g
  let g := rorReg 11 11 c g
  let g := rorReg 12 12 c g
  rorReg 14 14 c g

/-- `ldmia r0, {r2-r12,lr}` (s:366, 544, 654, y:220 etc.). -/
def ldm (g : Regs) (A : Lanes) : Regs
  | 2 => A 0 | 3 => A 1 | 4 => A 2 | 5 => A 3
  | 6 => A 4 | 7 => A 5 | 8 => A 6 | 9 => A 7
  | 10 => A 8 | 11 => A 9 | 12 => A 10 | 14 => A 11
  | r => g r

/-- The loads of `Xoodoo_Permute_6rounds` (s:329-332), with two pairs of registers exchanged. -/
def ldm6 (g : Regs) (A : Lanes) : Regs
  | 2 => A 0 | 3 => A 1 | 4 => A 2 | 5 => A 3
  | 8 => A 4 | 9 => A 5 | 6 => A 6 | 7 => A 7
  | 10 => A 8 | 11 => A 9 | 12 => A 10 | 14 => A 11
  | r => g r

/-- `stmia r0, {r2-r12,lr}` (s:352, 392, y:254 etc.). -/
def stm (g : Regs) : Lanes
  | 0 => g 2 | 1 => g 3 | 2 => g 4 | 3 => g 5
  | 4 => g 6 | 5 => g 7 | 6 => g 8 | 7 => g 9
  | 8 => g 10 | 9 => g 11 | 10 => g 12 | 11 => g 14

/-- `Xoodoo_Permute_6rounds` (s:327-354); `g` are the registers of the caller. -/
def permute6 (g : Regs) (A : Lanes) : Lanes := stm (undo 6 (rounds6 (ldm6 g A)))

/-- `Xoodoo_Permute_12rounds` (s:364-394). -/
def permute12 (g : Regs) (A : Lanes) : Lanes := stm (undo 12 (rounds12 (ldm g A)))

/-! ### Functions on bytes -/

/-- `subs` on registers; the carry flag is clear (`bcc`) when `a < b`. -/
def sub32 (a b : Nat) : Nat := (2 ^ 32 + a - b) % 2 ^ 32

/-- `adds` on registers; the carry flag is set (`bcs`) when `2 ^ 32 ≤ a + b`. -/
def add32 (a b : Nat) : Nat := (a + b) % 2 ^ 32

/-- `subs n, n, #k`, `bcc` past the loop; the loop with `subs n, n, #k` and `bcs` at its end. -/
def blockLoop {σ : Type} (k : Nat) (body : σ → Option σ) : Nat → σ → Nat → Option (σ × Nat)
  | 0, _, _ => none
  | fuel + 1, s, n =>
    if n < k then some (s, sub32 n k)
    else do
      let s ← body s
      blockLoop k body fuel s (sub32 n k)

/-- The loop over the last bytes, with `subs r3, r3, #1` and `bcs` at its end. -/
def tailLoop {σ : Type} (body : σ → Option σ) : Nat → σ → Nat → Option σ
  | 0, _, _ => none
  | fuel + 1, s, n => do
    let s ← body s
    if n < 1 then some s else tailLoop body fuel s (sub32 n 1)

/-- What the functions with an offset and a length have in common (s:52-71, 84-99, 138-153, 168-187): the loop over
words, `adds r3, r3, #3` with `bcc`, and the loop over bytes. -/
def stages {σ : Type} (word byte : σ → Option σ) (s : σ) (n : Nat) : Option σ := do
  let st ← blockLoop 4 word (2 ^ 32) s n
  if st.2 + 3 < 2 ^ 32 then some st.1 else tailLoop byte (2 ^ 32) st.1 (add32 st.2 3)

/-- `ldrb`. -/
def ldrb (m : Bytes) (a : Nat) : Option Byte := m[a]?

/-- `strb`. -/
def strb (m : Bytes) (a : Nat) (b : Byte) : Option Bytes := if a < m.length then some (m.set a b) else none

/-- The state, the pointer `r0` to the state and the pointer `r1` to the data. -/
structure Wr where
  st : Bytes
  (r0 r1 : Nat)

/-- The body of `Xoodoo_AddBytes_LanesLoop` (s:55-58). -/
def addWord (data : Bytes) (s : Wr) : Option Wr := do
  let r2 ← loadWord s.st s.r0
  let r4 ← loadWord data s.r1
  let st ← storeWord s.st s.r0 (r2 ^^^ r4)
  some ⟨st, s.r0 + 4, s.r1 + 4⟩

/-- The body of `Xoodoo_AddBytes_BytesLoop` (s:65-68). -/
def addOne (data : Bytes) (s : Wr) : Option Wr := do
  let r2 ← ldrb s.st s.r0
  let r4 ← ldrb data s.r1
  let st ← strb s.st s.r0 (r2 ^^^ r4)
  some ⟨st, s.r0 + 1, s.r1 + 1⟩

/-- `Xoodoo_AddBytes` (s:49-72). -/
def addBytes (st data : Bytes) (offset length : Nat) : Option Bytes := do
  some (← stages (addWord data) (addOne data) ⟨st, offset, 0⟩ length).st

/-- The body of `Xoodoo_OverwriteBytes_LanesLoop` (s:87-88). -/
def overwriteWord (data : Bytes) (s : Wr) : Option Wr := do
  let r2 ← loadWord data s.r1
  let st ← storeWord s.st s.r0 r2
  some ⟨st, s.r0 + 4, s.r1 + 4⟩

/-- The body of `Xoodoo_OverwriteBytes_BytesLoop` (s:95-96). -/
def overwriteOne (data : Bytes) (s : Wr) : Option Wr := do
  let r2 ← ldrb data s.r1
  let st ← strb s.st s.r0 r2
  some ⟨st, s.r0 + 1, s.r1 + 1⟩

/-- `Xoodoo_OverwriteBytes` (s:82-100). -/
def overwriteBytes (st data : Bytes) (offset length : Nat) : Option Bytes := do
  some (← stages (overwriteWord data) (overwriteOne data) ⟨st, offset, 0⟩ length).st

/-- The loops of `Xoodoo_OverwriteWithZeroes`, with `subs` and `bne` at the end; `write` is the store and `step` what is
added to the pointer. -/
def zeroLoop (write : Bytes → Nat → Option Bytes) (step : Nat) : Nat → Bytes → Nat → Nat → Option (Bytes × Nat)
  | 0, _, _, _ => none
  | fuel + 1, st, r0, n => do
    let st ← write st r0
    let n := sub32 n 1
    if n ≠ 0 then zeroLoop write step fuel st (r0 + step) n else some (st, r0 + step)

/-- A loop that is skipped with `beq` when the counter is 0 (s:113, 120). -/
def unlessZero (write : Bytes → Nat → Option Bytes) (step : Nat) (st : Bytes) (r0 n : Nat) : Option (Bytes × Nat) :=
  if n = 0 then some (st, r0) else zeroLoop write step (2 ^ 32) st r0 n

/-- `Xoodoo_OverwriteWithZeroes` (s:110-126). -/
def overwriteWithZeroes (st : Bytes) (byteCount : Nat) : Option Bytes := do
  let s ← unlessZero (fun st r0 => storeWord st r0 0) 4 st 0 (byteCount / 4)
  let s ← unlessZero (fun st r0 => strb st r0 0) 1 s.1 s.2 (byteCount % 4)
  some s.1

/-- The bytes written and the pointer to the state. -/
structure Ex where
  out : Bytes
  r0 : Nat

/-- The body of `Xoodoo_ExtractBytes_LanesLoop` (s:141-142). -/
def extractWord (st : Bytes) (s : Ex) : Option Ex := do
  let r2 ← loadWord st s.r0
  some ⟨s.out ++ bytesOfWord r2, s.r0 + 4⟩

/-- The body of `Xoodoo_ExtractBytes_BytesLoop` (s:149-150). -/
def extractOne (st : Bytes) (s : Ex) : Option Ex := do
  let r2 ← ldrb st s.r0
  some ⟨s.out ++ [r2], s.r0 + 1⟩

/-- `Xoodoo_ExtractBytes` (s:136-154). -/
def extractBytes (st : Bytes) (offset length : Nat) : Option Bytes := do
  some (← stages (extractWord st) (extractOne st) ⟨[], offset⟩ length).out

/-- The bytes written, the pointer to the state and the pointer to the input. -/
structure Ea where
  out : Bytes
  (r0 r1 : Nat)

/-- The body of `Xoodoo_ExtractAndAddBytes_LanesLoop` (s:171-174). -/
def extractAddWord (st input : Bytes) (s : Ea) : Option Ea := do
  let r5 ← loadWord st s.r0
  let r4 ← loadWord input s.r1
  some ⟨s.out ++ bytesOfWord (r5 ^^^ r4), s.r0 + 4, s.r1 + 4⟩

/-- The body of `Xoodoo_ExtractAndAddBytes_BytesLoop` (s:181-184). -/
def extractAddOne (st input : Bytes) (s : Ea) : Option Ea := do
  let r5 ← ldrb st s.r0
  let r4 ← ldrb input s.r1
  some ⟨s.out ++ [r5 ^^^ r4], s.r0 + 1, s.r1 + 1⟩

/-- `Xoodoo_ExtractAndAddBytes` (s:164-189). -/
def extractAndAddBytes (st input : Bytes) (offset length : Nat) : Option Bytes := do
  some (← stages (extractAddWord st input) (extractAddOne st input) ⟨[], offset, 0⟩ length).out

/-- `Xoodoo_AddByte` (Xoodoo-SnP.h:36). -/
def addByte (st : Bytes) (b : Byte) (offset : Nat) : Option Bytes := do
  let a ← ldrb st offset
  strb st offset (a ^^^ b)

/-- `Xoodoo_Initialize` (s:31-39): three stores of four words. -/
def init : Bytes := bytesOfLanes (fun _ => 0)

/-- The functions that access the bytes of a state. -/
def access : Access Bytes where
  init := XoodooArm.init
  addByte := XoodooArm.addByte
  addBytes := XoodooArm.addBytes
  overwriteBytes := XoodooArm.overwriteBytes
  overwriteWithZeroes := XoodooArm.overwriteWithZeroes
  extractBytes := XoodooArm.extractBytes
  extractAndAddBytes := XoodooArm.extractAndAddBytes

/-! ### Xoofff -/

/-- Four loads from `output`, four loads from `input`, four times `eor` and four stores (s:411-426, 428-443, 445-460,
470-485). -/
def add4Words (input : Bytes) (s : Wr) : Option Wr := do
  let r3 ← loadWord s.st (s.r0 + 0)
  let r4 ← loadWord s.st (s.r0 + 4)
  let r5 ← loadWord s.st (s.r0 + 8)
  let r6 ← loadWord s.st (s.r0 + 12)
  let r7 ← loadWord input s.r1
  let r8 ← loadWord input (s.r1 + 4)
  let r9 ← loadWord input (s.r1 + 8)
  let r10 ← loadWord input (s.r1 + 12)
  let st ← storeWord s.st s.r0 (r3 ^^^ r7)
  let st ← storeWord st (s.r0 + 4) (r4 ^^^ r8)
  let st ← storeWord st (s.r0 + 8) (r5 ^^^ r9)
  let st ← storeWord st (s.r0 + 12) (r6 ^^^ r10)
  some ⟨st, s.r0 + 16, s.r1 + 16⟩

/-- The body of `Xoofff_AddIs_BlockLoop` (s:411-460). -/
def addBlock (input : Bytes) (s : Wr) : Option Wr := do
  let s ← add4Words input s
  let s ← add4Words input s
  add4Words input s

/-- The last bits in `Xoofff_AddIs` (s:515-522); the byte in `r3` is masked with the `n` low bits. -/
def addBits (input : Bytes) (s : Wr) (n : Nat) : Option Bytes := do
  let r3 ← ldrb s.st s.r0
  let r7 ← ldrb input s.r1
  let r1 : BitVec 32 := ((1 : BitVec 32) <<< n) - 1
  strb s.st s.r0 (((r3.setWidth 32 ^^^ r7.setWidth 32) &&& r1).setWidth 8)

/-- `Xoofff_AddIs` (s:405-524).  After each loop, `adds` gives the number of bits left, and `beq` returns if it is 0. -/
def addIs (output input : Bytes) (bitLen : Nat) : Option Bytes := do
  let st ← blockLoop (48 * 8) (addBlock input) (2 ^ 32) ⟨output, 0, 0⟩ bitLen
  let n := add32 st.2 (48 * 8)
  if n = 0 then some st.1.st
  else do
    let st ← blockLoop (16 * 8) (add4Words input) (2 ^ 32) st.1 n
    let n := add32 st.2 (16 * 8)
    if n = 0 then some st.1.st
    else do
      let st ← blockLoop (4 * 8) (addWord input) (2 ^ 32) st.1 n
      let n := add32 st.2 (4 * 8)
      if n = 0 then some st.1.st
      else do
        let st ← blockLoop 8 (addOne input) (2 ^ 32) st.1 n
        let n := add32 st.2 8
        if n = 0 then some st.1.st else addBits input st.1 n

/-- `ldr r1, [r0], #4` and `eors r, r, r1`, for the registers of a list (s:547-572, y:225-245, 292-300). -/
def eorIn (input : Bytes) : List Nat → Regs → Nat → Option (Regs × Nat)
  | [], g, p => some (g, p)
  | r :: rs, g, p => do
    let w ← loadWord input p
    eorIn input rs (eor r r 1 0 (set g 1 w)) (p + 4)

/-- The rounds in the loops of Xoofff (s:576-581, 657-662): the registers of the middle plane end up exchanged. -/
def roundsX (g : Regs) : Regs :=
  let g := mRound 6 7 8 9  9 6 7 8  10 11 12 14  32 32 (rc6.getD 0 0) g
  let g := mRound 9 6 7 8  8 9 6 7  12 14 10 11  1 (_e1 + _w1) (rc6.getD 1 0) g
  let g := mRound 8 9 6 7  7 8 9 6  10 11 12 14  1 (_e1 + _w1) (rc6.getD 2 0) g
  let g := mRound 7 8 9 6  6 7 8 9  12 14 10 11  1 (_e1 + _w1) (rc6.getD 3 0) g
  let g := mRound 6 7 8 9  9 6 7 8  10 11 12 14  1 (_e1 + _w1) (rc6.getD 4 0) g
  mRound 9 6 7 8  8 9 6 7  12 14 10 11  1 (_e1 + _w1) (rc6.getD 5 0) g

/-- "Extract and add into xAccu" (s:584-613). -/
def accumulate (g : Regs) (x : Lanes) : Lanes :=
  let g := set g 1 (x 0)
  let g := mRloXor 2 1 ((6 * _r0).tmod 32) g
  let g := set g 1 (x 1)
  let x := put x 0 (g 2)
  let g := mRloXor 3 1 ((6 * _r0).tmod 32) g
  let g := set g 1 (x 2)
  let x := put x 1 (g 3)
  let g := mRloXor 4 1 ((6 * _r0).tmod 32) g
  let g := set g 1 (x 3)
  let x := put x 2 (g 4)
  let g := mRloXor 5 1 ((6 * _r0).tmod 32) g
  let x := put x 3 (g 5)
  let g := set (set (set (set g 2 (x 4)) 3 (x 5)) 4 (x 6)) 5 (x 7)
  let g := mRliXor 2 8 ((6 * _r0 + 1).tmod 32) g
  let g := mRliXor 3 9 ((6 * _r0 + 1).tmod 32) g
  let g := mRliXor 4 6 ((6 * _r0 + 1).tmod 32) g
  let g := mRliXor 5 7 ((6 * _r0 + 1).tmod 32) g
  let x := put (put (put (put x 4 (g 2)) 5 (g 3)) 6 (g 4)) 7 (g 5)
  let g := set (set (set (set g 2 (x 8)) 3 (x 9)) 4 (x 10)) 5 (x 11)
  let g := mRliXor 2 10 ((6 * _r0 + _e1 + _w1).tmod 32) g
  let g := mRliXor 3 11 ((6 * _r0 + _e1 + _w1).tmod 32) g
  let g := mRliXor 4 12 ((6 * _r0 + _e1 + _w1).tmod 32) g
  let g := mRliXor 5 14 ((6 * _r0 + _e1 + _w1).tmod 32) g
  put (put (put (put x 8 (g 2)) 9 (g 3)) 10 (g 4)) 11 (g 5)

/-- The loads before rolling (s:617-619, 707-709): the first plane goes to `lr`, `r10`-`r12`, the others to `r2`-`r9`. -/
def ldmRoll (g : Regs) (A : Lanes) : Regs
  | 14 => A 0 | 10 => A 1 | 11 => A 2 | 12 => A 3
  | 2 => A 4 | 3 => A 5 | 4 => A 6 | 5 => A 7
  | 6 => A 8 | 7 => A 9 | 8 => A 10 | 9 => A 11
  | r => g r

/-- "roll kRoll" (s:616-623), before the store; `eors lr, lr, lr, LSL #13` and `eors lr, lr, r2, ROR #32-3`. -/
def rollc (g : Regs) (k : Lanes) : Regs :=
  let g := ldmRoll g k
  let g := set g 14 (g 14 ^^^ g 14 <<< 13)
  eor 14 14 2 (32 - 3) g

/-- The loop of `Xoofff_CompressFastLoop` (s:545-628): the mask, the accumulator and the pointer to the input.  At the
start the registers hold the mask. -/
def compressLoop (input : Bytes) : Nat → Regs → Lanes → Lanes → Nat → Nat → Option (Lanes × Lanes × Nat)
  | 0, _, _, _, _, _ => none
  | fuel + 1, g, k, x, p, n => do
    let st ← eorIn input [2, 3, 4, 5, 6, 7, 8, 9, 10, 11, 12, 14] g p
    let g := roundsX st.1
    let x := accumulate g x
    let g := rollc g k
    let k := stm g
    if n < 48 then some (k, x, st.2) else compressLoop input fuel g k x st.2 (sub32 n 48)

/-- `Xoofff_CompressFastLoop` (s:540-634): the mask, the accumulator and the return value. -/
def compressFastLoop (g : Regs) (kRoll xAccu : Lanes) (input : Bytes) (length : Nat) : Option (Lanes × Lanes × Nat) :=
  compressLoop input (2 ^ 32) (ldm g kRoll) kRoll xAccu 0 (sub32 length 48)

/-- "Add k and extract" (s:665-702): the words stored to the output, in this order. -/
def addKey (g : Regs) (k : Lanes) : List Lane :=
  let g := set g 1 (k 0)
  let g := mRloXor 2 1 ((6 * _r0).tmod 32) g
  let o0 := g 2
  let g := set g 2 (k 1)
  let g := mRloXor 3 2 ((6 * _r0).tmod 32) g
  let g := set g 2 (k 2)
  let o1 := g 3
  let g := mRloXor 4 2 ((6 * _r0).tmod 32) g
  let g := set g 2 (k 3)
  let o2 := g 4
  let g := mRloXor 5 2 ((6 * _r0).tmod 32) g
  let o3 := g 5
  let g := set (set (set (set g 2 (k 4)) 3 (k 5)) 4 (k 6)) 5 (k 7)
  let g := mRliXor 2 8 ((6 * _r0 + 1).tmod 32) g
  let o4 := g 2
  let g := mRliXor 3 9 ((6 * _r0 + 1).tmod 32) g
  let o5 := g 3
  let g := mRliXor 4 6 ((6 * _r0 + 1).tmod 32) g
  let o6 := g 4
  let g := mRliXor 5 7 ((6 * _r0 + 1).tmod 32) g
  let o7 := g 5
  let g := set (set (set (set g 2 (k 8)) 3 (k 9)) 4 (k 10)) 5 (k 11)
  let g := mRliXor 2 10 ((6 * _r0 + _e1 + _w1).tmod 32) g
  let o8 := g 2
  let g := mRliXor 3 11 ((6 * _r0 + _e1 + _w1).tmod 32) g
  let o9 := g 3
  let g := mRliXor 4 12 ((6 * _r0 + _e1 + _w1).tmod 32) g
  let o10 := g 4
  let g := mRliXor 5 14 ((6 * _r0 + _e1 + _w1).tmod 32) g
  [o0, o1, o2, o3, o4, o5, o6, o7, o8, o9, o10, g 5]

/-- `str r, [p], #4` for each of the words. -/
def strWords : List Lane → Bytes → Nat → Option (Bytes × Nat)
  | [], out, p => some (out, p)
  | w :: ws, out, p => do
    let out ← storeWord out p w
    strWords ws out (p + 4)

/-- "roll-e yAccu" (s:705-715), before the store. -/
def rolle (g : Regs) (y : Lanes) : Regs :=
  let g := ldmRoll g y
  let g := set g 1 (g 6 &&& g 2)
  let g := eor 14 1 14 (32 - 5) g
  let g := eor 14 14 2 (32 - 13) g
  eorImm 14 14 7 g

/-- The loop of `Xoofff_ExpandFastLoop` (s:655-720): the accumulator, the output and the pointer to it.  The loads and
stores of a block are interleaved in the code; they access different buffers. -/
def expandLoop (k : Lanes) : Nat → Regs → Lanes → Bytes → Nat → Nat → Option (Lanes × Bytes × Nat)
  | 0, _, _, _, _, _ => none
  | fuel + 1, g, y, out, p, n => do
    let g := roundsX g
    let st ← strWords (addKey g k) out p
    let g := rolle g y
    let y := stm g
    if n < 48 then some (y, st.1, st.2) else expandLoop k fuel g y st.1 st.2 (sub32 n 48)

/-- `Xoofff_ExpandFastLoop` (s:650-726): the accumulator, the output buffer and the return value. -/
def expandFastLoop (g : Regs) (yAccu kRoll : Lanes) (output : Bytes) (length : Nat) : Option (Lanes × Bytes × Nat) :=
  expandLoop kRoll (2 ^ 32) (ldm g yAccu) yAccu output 0 (sub32 length 48)

/-! ### Xoodyak -/

/-- `Xoodoo_Permute_12roundsAsm` (y:162-187). -/
def permute12Asm (g : Regs) : Regs := undo 12 (rounds12 g)

/-- The loops of `Xoodyak_AbsorbKeyedFullBlocks` (y:221-252) and `Xoodyak_AbsorbHashFullBlocks` (y:288-305): `rs` are the
registers to which the block is added and `pad` is the one that the byte 1 is added to. -/
def absorbLoop (X : Bytes) (rs : List Nat) (pad rate : Nat) : Nat → Regs → Nat → Nat → Option (Regs × Nat)
  | 0, _, _, _ => none
  | fuel + 1, g, p, n => do
    let g := permute12Asm g
    let st ← eorIn X rs g p
    let g := eorImm pad pad 1 st.1
    if n < rate then some (g, sub32 n rate) else absorbLoop X rs pad rate fuel g st.2 (sub32 n rate)

/-- `Xoodyak_AbsorbKeyedFullBlocks` (y:214-258): the state and the return value. -/
def absorbKeyedFullBlocks (g : Regs) (A : Lanes) (X : Bytes) (XLen : Nat) : Option (Lanes × Nat) := do
  let st ← absorbLoop X [2, 3, 4, 5, 6, 7, 8, 9, 10, 11, 12] 14 44 (2 ^ 32) (ldm g A) 0 (sub32 XLen 44)
  some (stm st.1, sub32 XLen (add32 st.2 44))

/-- `Xoodyak_AbsorbHashFullBlocks` (y:281-311). -/
def absorbHashFullBlocks (g : Regs) (A : Lanes) (X : Bytes) (XLen : Nat) : Option (Lanes × Nat) := do
  let st ← absorbLoop X [2, 3, 4, 5] 6 16 (2 ^ 32) (ldm g A) 0 (sub32 XLen 16)
  some (stm st.1, sub32 XLen (add32 st.2 16))

/-- The loops of `Xoodyak_SqueezeKeyedFullBlocks` (y:344-359) and `Xoodyak_SqueezeHashFullBlocks` (y:395-408): `rs` are
the registers that are stored. -/
def squeezeLoop (rs : List Nat) (rate : Nat) : Nat → Regs → Bytes → Nat → Nat → Option (Regs × Bytes × Nat)
  | 0, _, _, _, _ => none
  | fuel + 1, g, Y, p, n => do
    let g := permute12Asm (eorImm 2 2 1 g)
    let st ← strWords (rs.map g) Y p
    if n < rate then some (g, st.1, sub32 n rate) else squeezeLoop rs rate fuel g st.1 st.2 (sub32 n rate)

/-- `Xoodyak_SqueezeKeyedFullBlocks` (y:337-365): the state, the output buffer and the return value. -/
def squeezeKeyedFullBlocks (g : Regs) (A : Lanes) (Y : Bytes) (YLen : Nat) : Option (Lanes × Bytes × Nat) := do
  let st ← squeezeLoop [2, 3, 4, 5, 6, 7] 24 (2 ^ 32) (ldm g A) Y 0 (sub32 YLen 24)
  some (stm st.1, st.2.1, sub32 YLen (add32 st.2.2 24))

/-- `Xoodyak_SqueezeHashFullBlocks` (y:388-414). -/
def squeezeHashFullBlocks (g : Regs) (A : Lanes) (Y : Bytes) (YLen : Nat) : Option (Lanes × Bytes × Nat) := do
  let st ← squeezeLoop [2, 3, 4, 5] 16 (2 ^ 32) (ldm g A) Y 0 (sub32 YLen 16)
  some (stm st.1, st.2.1, sub32 YLen (add32 st.2.2 16))

/-- `mov d, n`, in `Xoodyak_DecryptFullBlocks` only. -/
def mov (decrypt : Bool) (d n : Nat) (g : Regs) : Regs := if decrypt then set g d (g n) else g

/-- The words of a block (y:453-474, 522-549), with the input at `p` and the output at `q` of the memory, which may
overlap; `r10` and `r11`, which hold the pointers meanwhile, are saved and restored. -/
def cryptBlock (decrypt : Bool) (g : Regs) (mem : Bytes) (p q : Nat) : Option (Regs × Bytes) := do
  let w ← loadWord mem p
  let g := set g 0 w
  let w ← loadWord mem (p + 4)
  let g := set g 1 w
  let g := eor 2 2 0 0 g
  let mem ← storeWord mem q (g 2)
  let g := mov decrypt 2 0 g
  let g := eor 3 3 1 0 g
  let w ← loadWord mem (p + 8)
  let g := set g 0 w
  let mem ← storeWord mem (q + 4) (g 3)
  let g := mov decrypt 3 1 g
  let g := eor 4 4 0 0 g
  let w ← loadWord mem (p + 12)
  let g := set g 1 w
  let mem ← storeWord mem (q + 8) (g 4)
  let g := mov decrypt 4 0 g
  let g := eor 5 5 1 0 g
  let w ← loadWord mem (p + 16)
  let g := set g 0 w
  let mem ← storeWord mem (q + 12) (g 5)
  let g := mov decrypt 5 1 g
  let g := eor 6 6 0 0 g
  let w ← loadWord mem (p + 20)
  let g := set g 1 w
  let mem ← storeWord mem (q + 16) (g 6)
  let g := mov decrypt 6 0 g
  let g := eor 7 7 1 0 g
  let mem ← storeWord mem (q + 20) (g 7)
  some (mov decrypt 7 1 g, mem)

/-- The loops of `Xoodyak_EncryptFullBlocks` (y:450-481) and `Xoodyak_DecryptFullBlocks` (y:519-556). -/
def cryptLoop (decrypt : Bool) : Nat → Regs → Bytes → Nat → Nat → Nat → Option (Regs × Bytes × Nat)
  | 0, _, _, _, _, _ => none
  | fuel + 1, g, mem, p, q, n => do
    let g := permute12Asm g
    let s ← cryptBlock decrypt g mem p q
    let g := eorImm 8 8 1 s.1
    if n < 24 then some (g, s.2, sub32 n 24) else cryptLoop decrypt fuel g s.2 (p + 24) (q + 24) (sub32 n 24)

/-- `Xoodyak_EncryptFullBlocks` (y:443-487) and `Xoodyak_DecryptFullBlocks` (y:512-562), with the input at `I` and the
output at `O` of the memory: the state, the memory and the return value. -/
def cryptFullBlocks (decrypt : Bool) (g : Regs) (A : Lanes) (mem : Bytes) (I O IOLen : Nat) : Option (Lanes × Bytes × Nat) := do
  let st ← cryptLoop decrypt (2 ^ 32) (ldm g A) mem I O (sub32 IOLen 24)
  some (stm st.1, st.2.1, sub32 IOLen (add32 st.2.2 24))

end XoodooArm
