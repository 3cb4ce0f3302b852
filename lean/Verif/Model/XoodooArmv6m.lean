import Verif.Model.XoodooArm

/-!
# Xoodoo, Xoofff and Xoodyak in ARMv6-M assembly

Models `lib/low/Xoodoo/ARM/Xoodoo-u1-armv6m-le-gcc.s` ("s" below) and `Xoodyak-u1-armv6m-le-gcc.s` ("y" below) with
`Xoodoo-SnP.h` in the same directory.  The `armcc` files are the same programs in the syntax of another assembler.

* A register file is a function from the number of the register; `lr` is register 14.  Three quarters of the state are in
  registers, one lane (`A03`) is a word on the stack.  The pointer to the round constants, which is also on the stack, is
  an offset in bytes from the start of the table; a read outside of the table gives `none`.
* The instructions on words fault at addresses that are not multiples of 4.  The address of a buffer is therefore a
  parameter, and a word at an address that is not a multiple of 4 gives `none`.  The state, the mask and the accumulators
  of the functions that keep them in registers are arrays of 12 words at a multiple of 4.
* As in `XoodooArm`, other buffers are lists of bytes with an offset, a read or write outside of a buffer gives `none`,
  counters have 32 bits, running out of fuel gives `none`, and buffers do not overlap except those of the functions for
  encryption and decryption.  Pushing and popping the registers of the caller is not modelled, arguments kept on the stack
  and the pointers to buffers are variables, and so is the return address of the local routine.
-/

namespace XoodooArm6

open Xoodoo (Lane Lanes bytesOfLanes)
open Simd32 (loadWord storeWord)
open KeccakP1600 (put)
open XoodooArm (sub32 add32 ldrb strb blockLoop unlessZero Wr addBits)

/-- The registers, the lane on the stack and the pointer to the round constants. -/
structure M where
  r : Nat → Lane
  s : Lane
  rc : Nat

/-- A register is written. -/
def M.set (m : M) (d : Nat) (w : Lane) : M := { m with r := fun q => if q = d then w else m.r q }

/-- `mov d, n`. -/
def mov (d n : Nat) (m : M) : M := m.set d (m.r n)

/-- `movs d, #c`. -/
def movs (d : Nat) (c : Lane) (m : M) : M := m.set d c

/-- `eors d, d, n`. -/
def eors (d n : Nat) (m : M) : M := m.set d (m.r d ^^^ m.r n)

/-- `ands d, d, n`. -/
def ands (d n : Nat) (m : M) : M := m.set d (m.r d &&& m.r n)

/-- `bics d, d, n`. -/
def bics (d n : Nat) (m : M) : M := m.set d (m.r d &&& ~~~ m.r n)

/-- `rors d, d, n`: the amount is the low byte of the register. -/
def rors (d n : Nat) (m : M) : M := m.set d ((m.r d).rotateRight ((m.r n).toNat % 256))

/-- `lsls d, n, #k`. -/
def lsls (d n k : Nat) (m : M) : M := m.set d (m.r n <<< k)

/-- `ldr d, [sp, #offsetA03]`. -/
def ldrA03 (d : Nat) (m : M) : M := m.set d m.s

/-- `str n, [sp, #offsetA03]`. -/
def strA03 (n : Nat) (m : M) : M := { m with s := m.r n }

/-- Where a lane is (s:230-233, y:39-42): in a register from `r0` to `r7`, in one from `r8` on, or on the stack. -/
inductive Loc
  | L (n : Nat)
  | H (n : Nat)
  | mem

/-- `_r0` (s:237, y:46). -/
def _r0 : Nat := 5
/-- `_r1` (s:238, y:47). -/
def _r1 : Nat := 14
/-- `_w1` (s:241, y:50). -/
def _w1 : Nat := 11
/-- `_e1` (s:244, y:53). -/
def _e1 : Nat := 8

/-- `mXor3` (s:249-262, y:87-100). -/
def mXor3 (ro : Nat) (a0 : Loc) (a1 a2 tt : Nat) (m : M) : M :=
  let m := mov ro a1 m
  let m := eors ro a2 m
  match a0 with
  | .L n => eors ro n m
  | .H n => eors ro tt (mov tt n m)
  | .mem => eors ro tt (ldrA03 tt m)

/-- `mXor` (s:264-278, y:102-116). -/
def mXor (ro : Loc) (ri tt : Nat) (m : M) : M :=
  match ro with
  | .L n => eors n ri m
  | .H n => mov n tt (eors tt ri (mov tt n m))
  | .mem => strA03 tt (eors tt ri (ldrA03 tt m))

/-- `mChi3` (s:280-301, y:118-139). -/
def mChi3 (a0 a1 a2 r0 r1 : Nat) (a0s : Loc) (m : M) : M :=
  let m := mov r1 a2 m
  let m := mov r0 a1 m
  let m := bics r1 r0 m
  let m := eors a0 r1 m
  let m := match a0s with
    | .L _ => m
    | .H n => mov n a0 m
    | .mem => strA03 a0 m
  let m := mov r0 a0 m
  let m := bics r0 a2 m
  let m := mov r1 a1 m
  let m := eors r1 r0 m
  let m := mov a1 r1 m
  let m := bics r1 a0 m
  eors a2 r1 m

/-- The effect of a column in `mRound` (s:307-312, 318-323, 329-334, 340-345, y:145-150 etc.). -/
def effect (m : M) : M :=
  let m := mov 1 0 m
  let m := movs 2 (BitVec.ofNat 32 (32 - (_r1 - _r0))) m
  let m := rors 1 2 m
  let m := eors 1 0 m
  let m := movs 2 (BitVec.ofNat 32 (32 - _r0)) m
  rors 1 2 m

/-- Theta in `mRound` (s:305-348, y:143-186). -/
def mTheta (m : M) : M :=
  let m := mXor3 0 .mem 14 7 2 m
  let m := effect m
  let m := mXor3 0 (.L 3) 10 4 2 m
  let m := mXor (.L 3) 1 2 m
  let m := mXor (.H 10) 1 2 m
  let m := mXor (.L 4) 1 2 m
  let m := effect m
  let m := mXor3 0 (.H 8) 11 5 2 m
  let m := mXor (.H 8) 1 2 m
  let m := mXor (.H 11) 1 2 m
  let m := mXor (.L 5) 1 2 m
  let m := effect m
  let m := mXor3 0 (.H 9) 12 6 2 m
  let m := mXor (.H 9) 1 2 m
  let m := mXor (.H 12) 1 2 m
  let m := mXor (.L 6) 1 2 m
  let m := effect m
  let m := mXor .mem 1 2 m
  let m := mXor (.H 14) 1 2 m
  mXor (.L 7) 1 2 m

/-- Rho-west in `mRound` (s:350-360, y:188-198). -/
def mRhoWest (m : M) : M :=
  let m := movs 0 (BitVec.ofNat 32 (32 - _w1)) m
  let m := rors 4 0 m
  let m := rors 5 0 m
  let m := rors 6 0 m
  let m := rors 7 0 m
  let m := mov 0 14 m
  let m := mov 14 12 m
  let m := mov 12 11 m
  let m := mov 11 10 m
  mov 10 0 m

/-- A word of a table of constants. -/
def tableWord (t : List Lane) (p : Nat) : Option Lane := if p % 4 = 0 then t[p / 4]? else none

/-- Iota in `mRound` (s:362-366, y:200-204) with the constant `c`; `r0` has the pointer, and is written before it is read
again. -/
def mIota (c : Lane) (m : M) : M := eors 3 1 (({ m with rc := add32 m.rc 4 } : M).set 1 c)

/-- Chi in `mRound` (s:368-375, y:206-213). -/
def mChi (m : M) : M :=
  let m := mChi3 3 10 4 0 1 (.L 3) m
  let m := mov 2 8 m
  let m := mChi3 2 11 5 0 1 (.H 8) m
  let m := mov 2 9 m
  let m := mChi3 2 12 6 0 1 (.H 9) m
  let m := ldrA03 2 m
  mChi3 2 14 7 0 1 .mem m

/-- Rho-east in `mRound` (s:377-403, y:215-241). -/
def mRhoEast (m : M) : M :=
  let m := movs 0 (32 - 1) m
  let m := mov 1 10 m
  let m := rors 1 0 m
  let m := mov 10 1 m
  let m := mov 1 11 m
  let m := rors 1 0 m
  let m := mov 11 1 m
  let m := mov 1 12 m
  let m := rors 1 0 m
  let m := mov 12 1 m
  let m := mov 1 14 m
  let m := rors 1 0 m
  let m := mov 14 1 m
  let m := movs 0 (BitVec.ofNat 32 (32 - _e1)) m
  let m := rors 4 0 m
  let m := rors 5 0 m
  let m := rors 6 0 m
  let m := rors 7 0 m
  let m := mov 0 4 m
  let m := mov 4 6 m
  let m := mov 6 0 m
  let m := mov 0 5 m
  let m := mov 5 7 m
  mov 7 0 m

/-- `mRound` (s:303-405, y:141-243). -/
def mRound (t : List Lane) (m : M) : Option M := do
  let m := mRhoWest (mTheta m)
  let c ← tableWord t m.rc
  some (mRhoEast (mChi (mIota c m)))

/-- The loop over rounds, which ends when the next constant is 0 (s:444-450, 746-753, 916-921, y:261-267). -/
def roundsLoop (t : List Lane) : Nat → M → Option M
  | 0, _ => none
  | fuel + 1, m => do
    let m ← mRound t m
    let c ← tableWord t m.rc
    if c = 0 then some m else roundsLoop t fuel m

/-- The round constants with the 0 after them (s:478-492, y:272-285). -/
def RC12 : List Lane :=
  [0x00000058, 0x00000038, 0x000003C0, 0x000000D0, 0x00000120, 0x00000014, 0x00000060, 0x0000002C, 0x00000380, 0x000000F0,
   0x000001A0, 0x00000012, 0]

/-- The round constants in the functions for Xoofff (s:694-701, 922-929). -/
def RC6 : List Lane := [0x00000060, 0x0000002C, 0x00000380, 0x000000F0, 0x000001A0, 0x00000012, 0]

/-- The loads of the state (s:434-443, 634-643, 903-912, y:331-340 etc.). -/
def load (A : Lanes) (m : M) : M :=
  let m := (((m.set 3 (A 0)).set 5 (A 1)).set 6 (A 2)).set 7 (A 3)
  let m := mov 8 5 m
  let m := mov 9 6 m
  let m := strA03 7 m
  let m := (((m.set 4 (A 4)).set 5 (A 5)).set 6 (A 6)).set 7 (A 7)
  let m := mov 10 4 m
  let m := mov 11 5 m
  let m := mov 12 6 m
  let m := mov 14 7 m
  (((m.set 4 (A 8)).set 5 (A 9)).set 6 (A 10)).set 7 (A 11)

/-- The stores of the state (s:454-466, 830-842, 1058-1070, y:398-408 etc.). -/
def store (m : M) : Lanes
  | 0 => m.r 3 | 1 => m.r 8 | 2 => m.r 9 | 3 => m.s
  | 4 => m.r 10 | 5 => m.r 11 | 6 => m.r 12 | 7 => m.r 14
  | 8 => m.r 4 | 9 => m.r 5 | 10 => m.r 6 | 11 => m.r 7

/-- `Xoodoo_Permute_Nrounds` (s:420-476); `m` is what the registers and the stack hold before the call. -/
def permuteNrounds (m : M) (A : Lanes) (nrounds : Nat) : Option Lanes := do
  let m := load A { m with rc := sub32 48 (nrounds * 4 % 2 ^ 32) }
  let m ← roundsLoop RC12 (2 ^ 32) m
  some (store m)

/-- `Xoodoo_Permute_6rounds` (s:500-503). -/
def permute6 (m : M) (A : Lanes) : Option Lanes := permuteNrounds m A 6

/-- `Xoodoo_Permute_12rounds` (s:513-516). -/
def permute12 (m : M) (A : Lanes) : Option Lanes := permuteNrounds m A 12

/-! ### Words and bytes of buffers -/

/-- `lsls r, r, #30` and `bne`. -/
def unaligned (a : Lane) : Bool := a <<< 30 != 0

/-- The address of byte `p` of a buffer at `ad`. -/
def addr (ad p : Nat) : Lane := BitVec.ofNat 32 (ad + p)

/-- `ldr` and `ldm`. -/
def ldw (ad : Nat) (b : Bytes) (p : Nat) : Option Lane := if (ad + p) % 4 = 0 then loadWord b p else none

/-- `str` and `stm`. -/
def stw (ad : Nat) (b : Bytes) (p : Nat) (w : Lane) : Option Bytes := if (ad + p) % 4 = 0 then storeWord b p w else none

/-- `mLdu` (s:594-606). -/
def mLdu (b : Bytes) (p : Nat) : Option Lane := do
  let x ← ldrb b (p + 3)
  let v : Lane := x.setWidth 32
  let v := v <<< 8
  let x ← ldrb b (p + 2)
  let v := v ||| x.setWidth 32
  let v := v <<< 8
  let x ← ldrb b (p + 1)
  let v := v ||| x.setWidth 32
  let v := v <<< 8
  let x ← ldrb b (p + 0)
  some (v ||| x.setWidth 32)

/-- `mLoadU` (y:58-69). -/
def mLoadU (b : Bytes) (p : Nat) : Option Lane := do
  let x ← ldrb b (p + 0)
  let v : Lane := x.setWidth 32
  let x ← ldrb b (p + 1)
  let v := v ||| x.setWidth 32 <<< 8
  let x ← ldrb b (p + 2)
  let v := v ||| x.setWidth 32 <<< 16
  let x ← ldrb b (p + 3)
  some (v ||| x.setWidth 32 <<< 24)

/-- `mStu` (s:865-874) and `mStoreU` (y:71-85). -/
def mStu (b : Bytes) (p : Nat) (v : Lane) : Option Bytes := do
  let b ← strb b (p + 0) (v.setWidth 8)
  let v := v >>> 8
  let b ← strb b (p + 1) (v.setWidth 8)
  let v := v >>> 8
  let b ← strb b (p + 2) (v.setWidth 8)
  let v := v >>> 8
  strb b (p + 3) (v.setWidth 8)

/-! ### Functions on bytes -/

/-- The loop over the last bytes, from the last to the first, with `subs r3, r3, #1` and `bcs` at its end. -/
def downLoop {σ : Type} (byte : σ → Nat → Option σ) : Nat → σ → Nat → Option σ
  | 0, _, _ => none
  | fuel + 1, s, n => do
    let s ← byte s n
    if n < 1 then some s else downLoop byte fuel s (sub32 n 1)

/-- What the functions with an offset and a length have in common (s:51-76, 88-109, 148-169, 183-208): the loop over words,
which is left out if the pointers are not all multiples of 4, `adds r3, r3, #4` with `beq`, `subs r3, r3, #1` and the loop
over bytes. -/
def stages {σ : Type} (skip : Bool) (word : σ → Option σ) (byte : σ → Nat → Option σ) (s : σ) (n : Nat) : Option σ := do
  let st ← if n < 4 ∨ skip then some (s, sub32 n 4) else blockLoop 4 word (2 ^ 32) s n
  let n := add32 st.2 4
  if n = 0 then some st.1 else downLoop byte (2 ^ 32) st.1 (sub32 n 1)

/-- The body of `Xoodoo_AddBytes_LanesLoop` (s:59-62) and of `Xoofff_AddIs_4Loop` (s:557-560); the state is at `a0` and the
data at `a1`. -/
def addWord (a0 a1 : Nat) (data : Bytes) (s : Wr) : Option Wr := do
  let r2 ← ldw a0 s.st s.r0
  let r4 ← ldw a1 data s.r1
  let st ← stw a0 s.st s.r0 (r2 ^^^ r4)
  some ⟨st, s.r0 + 4, s.r1 + 4⟩

/-- The body of `Xoodoo_AddBytes_BytesLoop` (s:70-73). -/
def addOne (data : Bytes) (s : Wr) (r3 : Nat) : Option Wr := do
  let r2 ← ldrb s.st (s.r0 + r3)
  let r4 ← ldrb data (s.r1 + r3)
  let st ← strb s.st (s.r0 + r3) (r2 ^^^ r4)
  some ⟨st, s.r0, s.r1⟩

/-- `Xoodoo_AddBytes` (s:49-77). -/
def addBytes (a0 a1 : Nat) (st data : Bytes) (offset length : Nat) : Option Bytes := do
  let skip := unaligned (addr a0 offset ||| addr a1 0)
  some (← stages skip (addWord a0 a1 data) (addOne data) ⟨st, offset, 0⟩ length).st

/-- The body of `Xoodoo_OverwriteBytes_LanesLoop` (s:96-97). -/
def overwriteWord (a0 a1 : Nat) (data : Bytes) (s : Wr) : Option Wr := do
  let r2 ← ldw a1 data s.r1
  let st ← stw a0 s.st s.r0 r2
  some ⟨st, s.r0 + 4, s.r1 + 4⟩

/-- The body of `Xoodoo_OverwriteBytes_BytesLoop` (s:105-106). -/
def overwriteOne (data : Bytes) (s : Wr) (r3 : Nat) : Option Wr := do
  let r2 ← ldrb data (s.r1 + r3)
  let st ← strb s.st (s.r0 + r3) r2
  some ⟨st, s.r0, s.r1⟩

/-- `Xoodoo_OverwriteBytes` (s:87-110). -/
def overwriteBytes (a0 a1 : Nat) (st data : Bytes) (offset length : Nat) : Option Bytes := do
  let skip := unaligned (addr a0 offset ||| addr a1 0)
  some (← stages skip (overwriteWord a0 a1 data) (overwriteOne data) ⟨st, offset, 0⟩ length).st

/-- `Xoodoo_OverwriteWithZeroes_LoopBytes` (s:132-135): the counter is decremented before it is used as an index. -/
def zeroBytes : Nat → Bytes → Nat → Nat → Option Bytes
  | 0, _, _, _ => none
  | fuel + 1, st, r0, n => do
    let n := sub32 n 1
    let st ← strb st (r0 + n) 0
    if n ≠ 0 then zeroBytes fuel st r0 n else some st

/-- `Xoodoo_OverwriteWithZeroes` (s:120-137). -/
def overwriteWithZeroes (a0 : Nat) (st : Bytes) (byteCount : Nat) : Option Bytes := do
  let s ← unlessZero (fun st r0 => stw a0 st r0 0) 4 st 0 (byteCount / 4)
  let n := byteCount % 4
  if n = 0 then some s.1 else zeroBytes (2 ^ 32) s.1 s.2 n

/-- The body of `Xoodoo_ExtractBytes_LanesLoop` (s:156-157); here `st` is the output buffer, at `a1`, with the pointer `r1`,
and the state is at `a0`. -/
def extractWord (a0 a1 : Nat) (state : Bytes) (s : Wr) : Option Wr := do
  let r2 ← ldw a0 state s.r0
  let out ← stw a1 s.st s.r1 r2
  some ⟨out, s.r0 + 4, s.r1 + 4⟩

/-- The body of `Xoodoo_ExtractBytes_BytesLoop` (s:165-166). -/
def extractOne (state : Bytes) (s : Wr) (r3 : Nat) : Option Wr := do
  let r2 ← ldrb state (s.r0 + r3)
  let out ← strb s.st (s.r1 + r3) r2
  some ⟨out, s.r0, s.r1⟩

/-- `Xoodoo_ExtractBytes` (s:147-170): the output buffer. -/
def extractBytes (a0 a1 : Nat) (state out : Bytes) (offset length : Nat) : Option Bytes := do
  let skip := unaligned (addr a0 offset ||| addr a1 0)
  some (← stages skip (extractWord a0 a1 state) (extractOne state) ⟨out, offset, 0⟩ length).st

/-- The output buffer and the pointers to the state, the input and the output. -/
structure Ea where
  out : Bytes
  (r0 r1 r2 : Nat)

/-- The body of `Xoodoo_ExtractAndAddBytes_LanesLoop` (s:192-195). -/
def extractAddWord (a0 a1 a2 : Nat) (state input : Bytes) (s : Ea) : Option Ea := do
  let r5 ← ldw a0 state s.r0
  let r4 ← ldw a1 input s.r1
  let out ← stw a2 s.out s.r2 (r5 ^^^ r4)
  some ⟨out, s.r0 + 4, s.r1 + 4, s.r2 + 4⟩

/-- The body of `Xoodoo_ExtractAndAddBytes_BytesLoop` (s:203-206). -/
def extractAddOne (state input : Bytes) (s : Ea) (r3 : Nat) : Option Ea := do
  let r5 ← ldrb state (s.r0 + r3)
  let r4 ← ldrb input (s.r1 + r3)
  let out ← strb s.out (s.r2 + r3) (r5 ^^^ r4)
  some ⟨out, s.r0, s.r1, s.r2⟩

/-- `Xoodoo_ExtractAndAddBytes` (s:180-211): the output buffer. -/
def extractAndAddBytes (a0 a1 a2 : Nat) (state input out : Bytes) (offset length : Nat) : Option Bytes := do
  let skip := unaligned (addr a0 offset ||| addr a1 0 ||| addr a2 0)
  some (← stages skip (extractAddWord a0 a1 a2 state input) (extractAddOne state input) ⟨out, offset, 0, 0⟩ length).out

/-- The functions that access the bytes of a state at `a0`, with the data or the input at `a1` and the output at `a2`;
`Xoodoo_Initialize` (s:31-40) and `Xoodoo_AddByte` (Xoodoo-SnP.h:36) are those of `XoodooArm`.  What was in the output
buffers before is `junk`. -/
def access (a0 a1 a2 : Nat) (junk : Byte) : Access Bytes where
  init := XoodooArm.init
  addByte := XoodooArm.addByte
  addBytes := addBytes a0 a1
  overwriteBytes := overwriteBytes a0 a1
  overwriteWithZeroes := overwriteWithZeroes a0
  extractBytes := fun s o n => extractBytes a0 a2 s (List.replicate n junk) o n
  extractAndAddBytes := fun s d o n => extractAndAddBytes a0 a1 a2 s d (List.replicate n junk) o n

/-! ### Xoofff -/

/-- Half of the body of `Xoofff_AddIs_16Loop` (s:537-542, 543-548). -/
def add2Words (a0 a1 : Nat) (input : Bytes) (s : Wr) : Option Wr := do
  let r3 ← ldw a0 s.st (s.r0 + 0)
  let r4 ← ldw a0 s.st (s.r0 + 4)
  let r5 ← ldw a1 input s.r1
  let r6 ← ldw a1 input (s.r1 + 4)
  let st ← stw a0 s.st s.r0 (r3 ^^^ r5)
  let st ← stw a0 st (s.r0 + 4) (r4 ^^^ r6)
  some ⟨st, s.r0 + 8, s.r1 + 8⟩

/-- The body of `Xoofff_AddIs_16Loop` (s:537-548). -/
def add4Words (a0 a1 : Nat) (input : Bytes) (s : Wr) : Option Wr := do
  let s ← add2Words a0 a1 input s
  add2Words a0 a1 input s

/-- `Xoofff_AddIs` from `Xoofff_AddIs_Bytes` on (s:566-589); the loop over bytes and the last bits are the same
instructions as in `XoodooArm`. -/
def addIsBytes (input : Bytes) (s : Wr) (n : Nat) : Option Bytes := do
  let st ← blockLoop 8 (XoodooArm.addOne input) (2 ^ 32) s n
  let n := add32 st.2 8
  if n = 0 then some st.1.st else addBits input st.1 n

/-- `Xoofff_AddIs` (s:528-590) with the output at `a0` and the input at `a1`. -/
def addIs (a0 a1 : Nat) (output input : Bytes) (bitLen : Nat) : Option Bytes :=
  if unaligned (addr a0 0 ||| addr a1 0) then addIsBytes input ⟨output, 0, 0⟩ bitLen
  else do
    let st ← blockLoop (16 * 8) (add4Words a0 a1 input) (2 ^ 32) ⟨output, 0, 0⟩ bitLen
    let n := add32 st.2 (16 * 8)
    if n = 0 then some st.1.st
    else do
      let st ← blockLoop (4 * 8) (addWord a0 a1 input) (2 ^ 32) st.1 n
      let n := add32 st.2 (4 * 8)
      if n = 0 then some st.1.st else addIsBytes input st.1 n

/-- Where the lanes are. -/
def locs : List Loc := [.L 3, .H 8, .H 9, .mem, .H 10, .H 11, .H 12, .H 14, .L 4, .L 5, .L 6, .L 7]

/-- A word is loaded in `r1`, the pointer is moved to the next word, and the word is added to a lane, with the
instructions of `mXor`.  This is done for each lane of a list (s:653-681, 704-743, y:351-388, 528-541). -/
def eorIn (read : Nat → Option Lane) : List Loc → M → Nat → Option (M × Nat)
  | [], m, p => some (m, p)
  | l :: ls, m, p => do
    let w ← read p
    eorIn read ls (mXor l 1 2 (m.set 1 w)) (p + 4)

/-- Two words loaded in `r1` and `r2` and added to two lanes (s:683-685, 686-688). -/
def eorPair (read : Nat → Option Lane) (d e : Nat) (m : M) (p : Nat) : Option (M × Nat) := do
  let w1 ← read p
  let w2 ← read (p + 4)
  some (eors e 2 (eors d 1 ((m.set 1 w1).set 2 w2)), p + 8)

/-- A block of the input is added (s:648-743) and `Xoofff_CompressFastLoop_input` is updated. -/
def addInput (ad : Nat) (input : Bytes) (m : M) (p : Nat) : Option (M × Nat) :=
  if unaligned (addr ad p) then eorIn (mLdu input) locs m p
  else do
    let st ← eorIn (ldw ad input) [.L 3, .H 8, .H 9, .mem, .H 10, .H 11, .H 12, .H 14] m p
    let st ← eorPair (ldw ad input) 4 5 st.1 st.2
    eorPair (ldw ad input) 6 7 st.1 st.2

/-- One of the first eight words of "Extract and add into xAccu" (s:759-794): `ldr r1, [r0]`, the lane is moved to `r2`
except the first, `eors` and `stmia r0!, {r1}`. -/
def accLane (l : Loc) (i : Fin 12) (m : M) (x : Lanes) : M × Lanes :=
  let m := m.set 1 (x i)
  let m := match l with
    | .L n => eors 1 n m
    | .H n => eors 1 2 (mov 2 n m)
    | .mem => eors 1 2 (ldrA03 2 m)
  (m, put x i (m.r 1))

/-- "Extract and add into xAccu" (s:756-804). -/
def accumulate (m : M) (x : Lanes) : Lanes :=
  let s := accLane (.L 3) 0 m x
  let s := accLane (.H 8) 1 s.1 s.2
  let s := accLane (.H 9) 2 s.1 s.2
  let s := accLane .mem 3 s.1 s.2
  let s := accLane (.H 10) 4 s.1 s.2
  let s := accLane (.H 11) 5 s.1 s.2
  let s := accLane (.H 12) 6 s.1 s.2
  let s := accLane (.H 14) 7 s.1 s.2
  let m := s.1
  let x := s.2
  let m := ((m.set 1 (x 8)).set 2 (x 9)).set 3 (x 10)
  let m := eors 1 4 m
  let m := m.set 4 (x 11)
  let m := eors 2 5 m
  let m := eors 3 6 m
  let m := eors 4 7 m
  put (put (put (put x 8 (m.r 1)) 9 (m.r 2)) 10 (m.r 3)) 11 (m.r 4)

/-- The loads before rolling (s:808-820, 1031-1043). -/
def loadRoll (A : Lanes) (m : M) : M :=
  let m := m.set 7 (A 0)
  let m := ((m.set 4 (A 1)).set 5 (A 2)).set 6 (A 3)
  let m := m.set 3 (A 4)
  let m := (m.set 1 (A 5)).set 2 (A 6)
  let m := mov 8 1 m
  let m := mov 9 2 m
  let m := (m.set 1 (A 7)).set 2 (A 8)
  let m := strA03 1 m
  let m := mov 10 2 m
  let m := (m.set 1 (A 9)).set 2 (A 10)
  let m := mov 11 1 m
  let m := mov 12 2 m
  let m := m.set 1 (A 11)
  mov 14 1 m

/-- "roll kRoll-c" (s:806-827), before the store. -/
def rollc (k : Lanes) (m : M) : M :=
  let m := loadRoll k m
  let m := lsls 1 7 13 m
  let m := eors 7 1 m
  let m := mov 1 3 m
  let m := movs 2 (32 - 3) m
  let m := rors 1 2 m
  eors 7 1 m

/-- The loop of `Xoofff_CompressFastLoop` (s:644-849): the mask, the accumulator and the pointer to the input.  At the
start the registers hold the mask. -/
def compressLoop (ad : Nat) (input : Bytes) : Nat → M → Lanes → Lanes → Nat → Nat → Option (Lanes × Lanes × Nat)
  | 0, _, _, _, _, _ => none
  | fuel + 1, m, k, x, p, n => do
    let st ← addInput ad input { m with rc := 0 } p
    let m ← roundsLoop RC6 (2 ^ 32) st.1
    let x := accumulate m x
    let m := rollc k m
    let k := store m
    if n < 48 then some (k, x, st.2) else compressLoop ad input fuel m k x st.2 (sub32 n 48)

/-- `Xoofff_CompressFastLoop` (s:625-861) with the input at the address `ad`: the mask, the accumulator and the return
value. -/
def compressFastLoop (m : M) (ad : Nat) (kRoll xAccu : Lanes) (input : Bytes) (length : Nat) : Option (Lanes × Lanes × Nat) :=
  compressLoop ad input (2 ^ 32) (load kRoll m) kRoll xAccu 0 (sub32 length 48)

/-- One of the first eight words of "Add k and extract" (s:938-969, 982-1013): `ldmia r0!, {r2}`, the lane is moved to `r3`
except the first, and `eors`; the word is then stored. -/
def keyLane (l : Loc) (k : Lane) (m : M) : M :=
  let m := m.set 2 k
  match l with
  | .L n => eors 2 n m
  | .H n => eors 2 3 (mov 3 n m)
  | .mem => eors 2 3 (ldrA03 3 m)

/-- The words stored in "Add k and extract" (s:937-979, 981-1024), in this order. -/
def addKey (m : M) (k : Lanes) : List Lane :=
  let m := keyLane (.L 3) (k 0) m
  let o0 := m.r 2
  let m := keyLane (.H 8) (k 1) m
  let o1 := m.r 2
  let m := keyLane (.H 9) (k 2) m
  let o2 := m.r 2
  let m := keyLane .mem (k 3) m
  let o3 := m.r 2
  let m := keyLane (.H 10) (k 4) m
  let o4 := m.r 2
  let m := keyLane (.H 11) (k 5) m
  let o5 := m.r 2
  let m := keyLane (.H 12) (k 6) m
  let o6 := m.r 2
  let m := keyLane (.H 14) (k 7) m
  let o7 := m.r 2
  let m := (m.set 2 (k 8)).set 3 (k 9)
  let m := eors 2 4 m
  let m := eors 3 5 m
  let o8 := m.r 2
  let o9 := m.r 3
  let m := (m.set 2 (k 10)).set 3 (k 11)
  let m := eors 2 6 m
  let m := eors 3 7 m
  [o0, o1, o2, o3, o4, o5, o6, o7, o8, o9, m.r 2, m.r 3]

/-- Each of the words is stored and the pointer is moved after it. -/
def strWords (write : Bytes → Nat → Lane → Option Bytes) : List Lane → Bytes → Nat → Option (Bytes × Nat)
  | [], out, p => some (out, p)
  | w :: ws, out, p => do
    let out ← write out p w
    strWords write ws out (p + 4)

/-- "roll-e yAccu" (s:1029-1055), before the store. -/
def rolle (y : Lanes) (m : M) : M :=
  let m := loadRoll y m
  let m := mov 1 10 m
  let m := ands 1 3 m
  let m := movs 2 (32 - 5) m
  let m := rors 7 2 m
  let m := eors 7 1 m
  let m := movs 2 (32 - 13) m
  let m := mov 1 3 m
  let m := rors 1 2 m
  let m := eors 7 1 m
  let m := movs 1 7 m
  eors 7 1 m

/-- The loop of `Xoofff_ExpandFastLoop` (s:913-1077): the accumulator, the output and the pointer to it.  The loads of the
mask and the stores of a block are interleaved in the code; they access different buffers. -/
def expandLoop (ad : Nat) (k : Lanes) : Nat → M → Lanes → Bytes → Nat → Nat → Option (Lanes × Bytes × Nat)
  | 0, _, _, _, _, _ => none
  | fuel + 1, m, y, out, p, n => do
    let m ← roundsLoop RC6 (2 ^ 32) { m with rc := 0 }
    let st ← strWords (if unaligned (addr ad p) then mStu else stw ad) (addKey m k) out p
    let m := rolle y m
    let y := store m
    if n < 48 then some (y, st.1, st.2) else expandLoop ad k fuel m y st.1 st.2 (sub32 n 48)

/-- `Xoofff_ExpandFastLoop` (s:893-1089) with the output at the address `ad`: the accumulator, the output buffer and the
return value. -/
def expandFastLoop (m : M) (ad : Nat) (yAccu kRoll : Lanes) (output : Bytes) (length : Nat) : Option (Lanes × Bytes × Nat) :=
  expandLoop ad kRoll (2 ^ 32) (load yAccu m) yAccu output 0 (sub32 length 48)

/-! ### Xoodyak -/

/-- `Xoodoo_Permute_12roundsAsm` (y:258-270). -/
def permute12Asm (m : M) : Option M := roundsLoop RC12 (2 ^ 32) { m with rc := 0 }

/-- `mLoadU` from offsets of a pointer that is not moved, and the instructions of `mXor` (y:422-463, 578-591). -/
def eorAt (b : Bytes) (p : Nat) : List (Nat × Loc) → M → Option M
  | [], m => some m
  | (o, l) :: ls, m => do
    let w ← mLoadU b (p + o)
    eorAt b p ls (mXor l 1 2 (m.set 1 w))

/-- Adding a block of `Xoodyak_AbsorbKeyedFullBlocks` (y:347-388, 422-467); `movs r2, #1` and `eors r7, r7, r2` after it. -/
def absorbKeyedBlock (ad : Nat) (X : Bytes) (m : M) (p : Nat) : Option (M × Nat) := do
  let st ← if unaligned (addr ad p) then do
      let m ← eorAt X p [(0, .L 3), (4, .H 8), (8, .H 9), (12, .mem), (16, .H 10), (20, .H 11), (24, .H 12), (28, .H 14)] m
      let p := p + 32
      let m ← eorAt X p [(0, .L 4), (4, .L 5), (8, .L 6)] m
      some (m, p + 12)
    else eorIn (ldw ad X) [.L 3, .H 8, .H 9, .mem, .H 10, .H 11, .H 12, .H 14, .L 4, .L 5, .L 6] m p
  some (eors 7 2 (movs 2 1 st.1), st.2)

/-- Adding a block of `Xoodyak_AbsorbHashFullBlocks` (y:524-547, 578-592). -/
def absorbHashBlock (ad : Nat) (X : Bytes) (m : M) (p : Nat) : Option (M × Nat) := do
  let st ← if unaligned (addr ad p) then do
      let m ← eorAt X p [(0, .L 3), (4, .H 8), (8, .H 9), (12, .mem)] m
      some (m, p + 16)
    else eorIn (ldw ad X) [.L 3, .H 8, .H 9, .mem] m p
  some (mov 10 1 (eors 1 2 (mov 1 10 (movs 2 1 st.1))), st.2)

/-- The loops of `Xoodyak_AbsorbKeyedFullBlocks` (y:341-396) and `Xoodyak_AbsorbHashFullBlocks` (y:518-551). -/
def absorbLoop (block : M → Nat → Option (M × Nat)) (rate : Nat) : Nat → M → Nat → Nat → Option (M × Nat)
  | 0, _, _, _ => none
  | fuel + 1, m, p, n => do
    let m ← permute12Asm m
    let st ← block m p
    if n < rate then some (st.1, sub32 n rate) else absorbLoop block rate fuel st.1 st.2 (sub32 n rate)

/-- `Xoodyak_AbsorbKeyedFullBlocks` (y:314-467), with `X` at the address `ad`: the state and the return value. -/
def absorbKeyedFullBlocks (m : M) (ad : Nat) (A : Lanes) (X : Bytes) (XLen : Nat) : Option (Lanes × Nat) := do
  let st ← absorbLoop (absorbKeyedBlock ad X) 44 (2 ^ 32) (load A m) 0 (sub32 XLen 44)
  some (store st.1, sub32 XLen (add32 st.2 44))

/-- `Xoodyak_AbsorbHashFullBlocks` (y:491-592). -/
def absorbHashFullBlocks (m : M) (ad : Nat) (A : Lanes) (X : Bytes) (XLen : Nat) : Option (Lanes × Nat) := do
  let st ← absorbLoop (absorbHashBlock ad X) 16 (2 ^ 32) (load A m) 0 (sub32 XLen 16)
  some (store st.1, sub32 XLen (add32 st.2 16))

/-- The value of a lane. -/
def get (m : M) : Loc → Lane
  | .L n => m.r n
  | .H n => m.r n
  | .mem => m.s

/-- The loops of `Xoodyak_SqueezeKeyedFullBlocks` (y:650-676, 700-708) and `Xoodyak_SqueezeHashFullBlocks` (y:758-781,
805-811): `ls` are the lanes that are stored, one after the other; those that are not in `r0`-`r7` are moved first. -/
def squeezeLoop (ad : Nat) (ls : List Loc) (rate : Nat) : Nat → M → Bytes → Nat → Nat → Option (M × Bytes × Nat)
  | 0, _, _, _, _ => none
  | fuel + 1, m, Y, p, n => do
    let m ← permute12Asm (eors 3 0 (movs 0 1 m))
    let st ← strWords (if unaligned (addr ad p) then mStu else stw ad) (ls.map (get m)) Y p
    if n < rate then some (m, st.1, sub32 n rate) else squeezeLoop ad ls rate fuel m st.1 st.2 (sub32 n rate)

/-- `Xoodyak_SqueezeKeyedFullBlocks` (y:623-708), with `Y` at the address `ad`: the state, the output buffer and the return
value. -/
def squeezeKeyedFullBlocks (m : M) (ad : Nat) (A : Lanes) (Y : Bytes) (YLen : Nat) : Option (Lanes × Bytes × Nat) := do
  let st ← squeezeLoop ad [.L 3, .H 8, .H 9, .mem, .H 10, .H 11] 24 (2 ^ 32) (load A m) Y 0 (sub32 YLen 24)
  some (store st.1, st.2.1, sub32 YLen (add32 st.2.2 24))

/-- `Xoodyak_SqueezeHashFullBlocks` (y:731-811). -/
def squeezeHashFullBlocks (m : M) (ad : Nat) (A : Lanes) (Y : Bytes) (YLen : Nat) : Option (Lanes × Bytes × Nat) := do
  let st ← squeezeLoop ad [.L 3, .H 8, .H 9, .mem] 16 (2 ^ 32) (load A m) Y 0 (sub32 YLen 16)
  some (store st.1, st.2.1, sub32 YLen (add32 st.2.2 16))

/-- A word of a block (y:885-916, 954-989, 1056-1089, 1126-1161): the word of the input at `p` is loaded in `r0` and added to
the lane, which is moved to `r1` except the first; the sum is stored at `q`, and the sum, or for decryption `r0`, is the new
lane. -/
def cryptLane (decrypt : Bool) (read : Bytes → Nat → Option Lane) (write : Bytes → Nat → Lane → Option Bytes) (l : Loc)
    (p q : Nat) (s : M × Bytes) : Option (M × Bytes) := do
  let w ← read s.2 p
  let m := s.1.set 0 w
  match l with
  | .L n =>
    let m := eors n 0 m
    let mem ← write s.2 q (m.r n)
    some (if decrypt then mov n 0 m else m, mem)
  | .H n =>
    let m := eors 1 0 (mov 1 n m)
    let mem ← write s.2 q (m.r 1)
    some (mov n (if decrypt then 0 else 1) m, mem)
  | .mem =>
    let m := eors 1 0 (ldrA03 1 m)
    let mem ← write s.2 q (m.r 1)
    some (strA03 (if decrypt then 0 else 1) m, mem)

/-- The words of a block (y:884-916, 953-993, 1055-1089, 1125-1165), with the input at `p` and the output at `q` of the
memory, which may overlap; `r4` and `r5`, which hold the pointers meanwhile, are saved and restored. -/
def cryptBlock (decrypt : Bool) (read : Bytes → Nat → Option Lane) (write : Bytes → Nat → Lane → Option Bytes) (p q : Nat)
    (m : M) (mem : Bytes) : Option (M × Bytes) := do
  let s ← cryptLane decrypt read write (.L 3) p q (m, mem)
  let s ← cryptLane decrypt read write (.H 8) (p + 4) (q + 4) s
  let s ← cryptLane decrypt read write (.H 9) (p + 8) (q + 8) s
  let s ← cryptLane decrypt read write .mem (p + 12) (q + 12) s
  let s ← cryptLane decrypt read write (.H 10) (p + 16) (q + 16) s
  cryptLane decrypt read write (.H 11) (p + 20) (q + 20) s

/-- The loops of `Xoodyak_EncryptFullBlocks` (y:871-929) and `Xoodyak_DecryptFullBlocks` (y:1042-1101), with the memory at
the address `ad`.  The pointers are combined with `ands` before their low bits are tested (y:879-883, 1050-1054). -/
def cryptLoop (decrypt : Bool) (ad : Nat) : Nat → M → Bytes → Nat → Nat → Nat → Option (M × Bytes × Nat)
  | 0, _, _, _, _, _ => none
  | fuel + 1, m, mem, p, q, n => do
    let m ← permute12Asm m
    let s ← if unaligned (addr ad q &&& addr ad p) then cryptBlock decrypt mLoadU mStu p q m mem
      else cryptBlock decrypt (ldw ad) (stw ad) p q m mem
    let m := mov 12 1 (eors 1 0 (mov 1 12 (movs 0 1 s.1)))
    if n < 24 then some (m, s.2, sub32 n 24) else cryptLoop decrypt ad fuel m s.2 (p + 24) (q + 24) (sub32 n 24)

/-- `Xoodyak_EncryptFullBlocks` (y:843-993) and `Xoodyak_DecryptFullBlocks` (y:1014-1165), with the memory at the address
`ad`, the input at `I` and the output at `O` of the memory: the state, the memory and the return value. -/
def cryptFullBlocks (decrypt : Bool) (m : M) (ad : Nat) (A : Lanes) (mem : Bytes) (I O IOLen : Nat) :
    Option (Lanes × Bytes × Nat) := do
  let st ← cryptLoop decrypt ad (2 ^ 32) (load A m) mem I O (sub32 IOLen 24)
  some (store st.1, st.2.1, sub32 IOLen (add32 st.2.2 24))

end XoodooArm6
