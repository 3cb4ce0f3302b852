import Verif.Model.XoodooArm
import Verif.Model.Simd32
import Verif.Model.PlSnPFallback
import Mathlib.Data.Fin.VecNotation

/-!
# The ARMv7-A NEON implementation of four instances of Xoodoo in assembly

A model of `lib/low/Xoodoo-times4/ARMv7A-NEON/Xoodoo-times4-ARMv7A.s` (cited as `s`) up to line 945, instruction by instruction: the functions of
`Xoodoo-times4-SnP.h`, without `Xooffftimes4_AddIs` and the fast loops of Xoofff, which follow in the file.

A NEON register `q` is a function of four lanes of 32 bits; its halves are the registers `d` and its lanes the registers `s`.  The core registers that hold
data are words, those that hold addresses are offsets in the buffer they point to, and those that count are numbers.  The address of the states
is a multiple of 16 (`ALIGN(16)` in the type of the header), the addresses of the other buffers are parameters.  An access outside of a buffer, or a word or vector
access (`ldr`, `str`, `ldmia`, `stmia`, `vldm`, `vstm`) at an address that is not a multiple of 4, gives `none`.

`push` and `pop`, `vpush` and `vpop` are not modelled: the registers that they save are those that they restore, and the buffers do not contain the stack.  The function
`Xoodootimes4_AddLanesAll` is modelled with the contents of all NEON registers, because in one of its branches it does not save those it has to preserve.
-/

namespace XoodooTimes4Neon

open Xoodoo (Lane)
open Simd32 (Vec xor slli set1 loadVec storeVec loadWord storeWord)
open XoodooArm (add32 sub32 ldrb strb)
open PlSnPFallback (Perm Par)

/-! ## Instructions -/

/-- The NEON registers. -/
structure Regs where
  (q0 q1 q2 q3 q4 q5 q6 q7 q8 q9 q10 q11 q12 q13 q14 q15 : Vec 4)

/-- `vbic qd, qn, qm`. -/
def vbic (a b : Vec 4) : Vec 4 := fun l => a l &&& ~~~ b l

/-- `vsri.U32 qd, qm, #i`: the upper `i` bits of the lanes of `qd` are kept. -/
def vsri (d m : Vec 4) (i : Nat) : Vec 4 := fun l => (d l &&& ~~~ (BitVec.allOnes 32 >>> i)) ||| m l >>> i

/-- `vmov d, ra, rb`, for the half `h` of a register `q`. -/
def setD (q : Vec 4) (h : Nat) (a b : Lane) : Vec 4 := fun l => if l.val / 2 = h then (if l.val % 2 = 0 then a else b) else q l

/-- `vmov s, r`, for lane `i` of a register `q`. -/
def setS (q : Vec 4) (i : Nat) (a : Lane) : Vec 4 := fun l => if l.val = i then a else q l

/-- `vuzp.32 qa, qb`: the even lanes, and the odd lanes. -/
def vuzp (a b : Vec 4) : Vec 4 × Vec 4 := (![a 0, a 2, b 0, b 2], ![a 1, a 3, b 1, b 3])

/-- `vtrn.32 qa, qb`: the lanes as 2x2 matrices, transposed. -/
def vtrn (a b : Vec 4) : Vec 4 × Vec 4 := (![a 0, b 0, a 2, b 2], ![a 1, b 1, a 3, b 3])

/-- `ldr`, and one register of `ldmia`, at offset `a` of a buffer whose address is `base`. -/
def ldr (base : Nat) (buf : Bytes) (a : Nat) : Option Lane := if (base + a) % 4 = 0 then loadWord buf a else none

/-- `str`, and one register of `stmia`. -/
def str (base : Nat) (buf : Bytes) (a : Nat) (w : Lane) : Option Bytes := if (base + a) % 4 = 0 then storeWord buf a w else none

/-- `vldm` for the two halves of a register `q`. -/
def vldm (base : Nat) (buf : Bytes) (a : Nat) : Option (Vec 4) := if (base + a) % 4 = 0 then loadVec 4 buf a else none

/-- `vstm` for the two halves of a register `q`. -/
def vstm (base : Nat) (buf : Bytes) (a : Nat) (v : Vec 4) : Option Bytes := if (base + a) % 4 = 0 then storeVec buf a v else none

/-- A loop that begins with `subs n, n, #1` and leaves when the carry is clear (`bxcc`, `popcc`), and that ends with `subs n, n, #1`, `bcs`. -/
def loop {σ : Type} (body : σ → Option σ) : Nat → Nat → σ → Option σ
  | 0, _, _ => none
  | fuel + 1, n, s => if n < 1 then some s else do
    let s ← body s
    loop body fuel (n - 1) s

/-! ## Initialization and access to bytes -/

/-- `Xoodootimes4_InitializeAll` (s:25-41); the 12 `vstm` with their increments of `r0`. -/
def initAll (st : Bytes) : Option Bytes :=
  [0, 16, 32, 48, 64, 80, 96, 112, 128, 144, 160, 176].foldlM (fun st r0 => vstm 0 st r0 (set1 0)) st

/-- The pointer to a byte of a state: `add`, `and`, `sub`, `add` with `lsl #2`, `add` (s:50-54, 65-69, 225-229, 371-375, 479-483). -/
def start (instanceIndex offset : Nat) : Nat :=
  let r1 := add32 instanceIndex offset
  let r3 := offset % 4
  let r1 := sub32 r1 r3
  add32 (r1 * 4 % 2 ^ 32) r3

/-- `and r5, r0, #3`, `cmp r5, #0`, `addeq r0, r0, #12` (s:86-88, 242-244, 385-387, 493-495); the address of the states is a multiple of 16. -/
def skip (r0 : Nat) : Nat := if r0 % 4 = 0 then r0 + 12 else r0

/-- `Xoodootimes4_AddByte` (s:49-58). -/
def addByte (st : Bytes) (instanceIndex : Nat) (byte : Byte) (offset : Nat) : Option Bytes := do
  let r0 := start instanceIndex offset
  let r3 ← ldrb st r0
  strb st r0 (r3 ^^^ byte)

/-- The states, the pointer `r0` to them and the pointer `r2` to the data. -/
structure Wr where
  st : Bytes
  (r0 r2 : Nat)

/-- The body of `Xt4_AddBytes_Loop` (s:82-88). -/
def addOne (data : Bytes) (s : Wr) : Option Wr := do
  let r4 ← ldrb s.st s.r0
  let r5 ← ldrb data s.r2
  let st ← strb s.st s.r0 (r4 ^^^ r5)
  some ⟨st, skip (s.r0 + 1), s.r2 + 1⟩

/-- `Xoodootimes4_AddBytes` (s:64-91); the length is that of the data. -/
def addBytes (st : Bytes) (instanceIndex : Nat) (data : Bytes) (offset : Nat) : Option Bytes := do
  some (← loop (addOne data) (2 ^ 32) data.length ⟨st, start instanceIndex offset, 0⟩).st

/-- The body of `Xt4_OverwriteBytes_Loop` (s:240-244). -/
def overwriteOne (data : Bytes) (s : Wr) : Option Wr := do
  let r4 ← ldrb data s.r2
  let st ← strb s.st s.r0 r4
  some ⟨st, skip (s.r0 + 1), s.r2 + 1⟩

/-- `ldmia` of four registers and four `str` in `Xt4_OverwriteBytes_Full` (s:250-254, 255-259, 260-264). -/
def overwrite4 (base : Nat) (data : Bytes) (s : Wr) : Option Wr := do
  let r1 ← ldr base data s.r2
  let r3 ← ldr base data (s.r2 + 4)
  let r4 ← ldr base data (s.r2 + 8)
  let r14 ← ldr base data (s.r2 + 12)
  let st ← str 0 s.st s.r0 r1
  let st ← str 0 st (s.r0 + 16) r3
  let st ← str 0 st (s.r0 + 32) r4
  let st ← str 0 st (s.r0 + 48) r14
  some ⟨st, s.r0 + 64, s.r2 + 16⟩

/-- `Xoodootimes4_OverwriteBytes` (s:218-265); `base` is the address of the data. -/
def overwriteBytes (base : Nat) (st : Bytes) (instanceIndex : Nat) (data : Bytes) (offset : Nat) : Option Bytes :=
  if data.length = 48 ∧ base % 4 = 0 then do
    let s ← overwrite4 base data ⟨st, instanceIndex * 4 % 2 ^ 32, 0⟩
    let s ← overwrite4 base data s
    let s ← overwrite4 base data s
    some s.st
  else do
    some (← loop (overwriteOne data) (2 ^ 32) data.length ⟨st, start instanceIndex offset, 0⟩).st

/-- `Xt4_OverwriteWithZeroes_Leftovers` (s:358-363): `subs`, `movcc pc`, `strb`, `bhi`, `mov pc`. -/
def zeroOnes : Nat → Bytes → Nat → Nat → Option Bytes
  | 0, _, _, _ => none
  | fuel + 1, st, r0, r2 =>
    if r2 < 1 then some st
    else do
      let st ← strb st r0 0
      if 1 < r2 then zeroOnes fuel st (r0 + 1) (r2 - 1) else some st

/-- `Xt4_OverwriteWithZeroes_Aligned` (s:352-357): `subs r2, r2, #4`, `strcs`, `bhi`, `moveq pc`, `add r2, r2, #4`. -/
def zeroLanes : Nat → Bytes → Nat → Nat → Option Bytes
  | 0, _, _, _ => none
  | fuel + 1, st, r0, r2 =>
    if r2 < 4 then zeroOnes (2 ^ 32) st r0 (add32 (sub32 r2 4) 4)
    else do
      let st ← str 0 st r0 0
      if 4 < r2 then zeroLanes fuel st (r0 + 16) (r2 - 4) else some st

/-- `Xoodootimes4_OverwriteWithZeroes` (s:348-363). -/
def overwriteWithZeroes (st : Bytes) (instanceIndex byteCount : Nat) : Option Bytes :=
  zeroLanes (2 ^ 32) st (instanceIndex * 4 % 2 ^ 32) byteCount

/-- What was written, the pointer `r0` to the states and the pointer `r2` to the input. -/
structure Ex where
  out : Bytes
  (r0 r2 : Nat)

/-- The body of `Xt4_ExtractBytes_Loop` (s:383-387); the output is written in order and given as a list. -/
def extractOne (st : Bytes) (s : Ex) : Option Ex := do
  let r4 ← ldrb st s.r0
  some ⟨s.out ++ [r4], skip (s.r0 + 1), s.r2⟩

/-- `Xoodootimes4_ExtractBytes` (s:370-390). -/
def extractBytes (st : Bytes) (instanceIndex offset length : Nat) : Option Bytes := do
  some (← loop (extractOne st) (2 ^ 32) length ⟨[], start instanceIndex offset, 0⟩).out

/-- The body of `Xt4_ExtractAndAddBytes_Loop` (s:489-495). -/
def extractAddOne (st input : Bytes) (s : Ex) : Option Ex := do
  let r4 ← ldrb st s.r0
  let r5 ← ldrb input s.r2
  some ⟨s.out ++ [r4 ^^^ r5], skip (s.r0 + 1), s.r2 + 1⟩

/-- `ldmia` of three registers, three `ldr` and `eor`, `stmia` in `Xt4_ExtractAndAddBytes_Full` (s:501-508, 509-516, 517-524, 525-532); the alignment of the output is tested
before. -/
def extractAdd3 (base : Nat) (st input : Bytes) (s : Ex) : Option Ex := do
  let r1 ← ldr base input s.r2
  let r4 ← ldr base input (s.r2 + 4)
  let r5 ← ldr base input (s.r2 + 8)
  let r14 ← ldr 0 st s.r0
  let r1 := r1 ^^^ r14
  let r14 ← ldr 0 st (s.r0 + 16)
  let r4 := r4 ^^^ r14
  let r14 ← ldr 0 st (s.r0 + 32)
  let r5 := r5 ^^^ r14
  some ⟨s.out ++ Xoodoo.bytesOfWord r1 ++ Xoodoo.bytesOfWord r4 ++ Xoodoo.bytesOfWord r5, s.r0 + 48, s.r2 + 12⟩

/-- `Xoodootimes4_ExtractAndAddBytes` (s:470-533); `basei` and `baseo` are the addresses of the input and of the output. -/
def extractAndAddBytes (basei baseo : Nat) (st : Bytes) (instanceIndex : Nat) (input : Bytes) (offset : Nat) : Option Bytes :=
  if input.length = 48 ∧ basei % 4 = 0 ∧ baseo % 4 = 0 then do
    let s ← extractAdd3 basei st input ⟨[], instanceIndex * 4 % 2 ^ 32, 0⟩
    let s ← extractAdd3 basei st input s
    let s ← extractAdd3 basei st input s
    let s ← extractAdd3 basei st input s
    some s.out
  else do
    some (← loop (extractAddOne st input) (2 ^ 32) input.length ⟨[], start instanceIndex offset, 0⟩).out

/-! ## Access to lanes -/

/-- Four `ldrb` with `eor` and `lsl` (s:135-141, and the similar ones of the other pointers and functions). -/
def ldrb4 (buf : Bytes) (a : Nat) : Option Lane := do
  let r3 ← ldrb buf a
  let r3 := r3.setWidth 32
  let r7 ← ldrb buf (a + 1)
  let r3 := r3 ^^^ r7.setWidth 32 <<< 8
  let r7 ← ldrb buf (a + 2)
  let r3 := r3 ^^^ r7.setWidth 32 <<< 16
  let r7 ← ldrb buf (a + 3)
  some (r3 ^^^ r7.setWidth 32 <<< 24)

/-- Four `strb` with `lsr` (s:426-432, and the similar ones of the other pointers and functions). -/
def strb4 (buf : Bytes) (a : Nat) (r3 : Lane) : Option Bytes := do
  let buf ← strb buf a (r3.setWidth 8)
  let r3 := r3 >>> 8
  let buf ← strb buf (a + 1) (r3.setWidth 8)
  let r3 := r3 >>> 8
  let buf ← strb buf (a + 2) (r3.setWidth 8)
  let r3 := r3 >>> 8
  strb buf (a + 3) (r3.setWidth 8)

/-- The pointers `r1`, `r4`, `r5`, `r6` to the data of the four instances. -/
structure Ptrs where
  (r1 r4 r5 r6 : Nat)

/-- `add r4, r1, r3, lsl #2`, `add r5, r4, r3, lsl #2`, `add r6, r5, r3, lsl #2` (s:106-108, 274-276, 399-401, 547-549, 551-553), as offsets. -/
def ptrs (laneOffset : Nat) : Ptrs :=
  let d := laneOffset * 4 % 2 ^ 32
  let r4 := add32 0 d
  let r5 := add32 r4 d
  ⟨0, r4, r5, add32 r5 d⟩

/-- The increments of the pointers after a lane. -/
def Ptrs.next (p : Ptrs) : Ptrs := ⟨p.r1 + 4, p.r4 + 4, p.r5 + 4, p.r6 + 4⟩

/-- Four `ldr` and four `vmov` to the lanes of a register `q` (s:119-126, 286-293). -/
def gather (base : Nat) (data : Bytes) (p : Ptrs) (q : Vec 4) : Option (Vec 4) := do
  let r3 ← ldr base data p.r1
  let q := setS q 0 r3
  let r3 ← ldr base data p.r4
  let q := setS q 1 r3
  let r3 ← ldr base data p.r5
  let q := setS q 2 r3
  let r3 ← ldr base data p.r6
  some (setS q 3 r3)

/-- The same with `ldrb` (s:135-169, 301-335, 558-592). -/
def gatherB (data : Bytes) (p : Ptrs) (q : Vec 4) : Option (Vec 4) := do
  let r3 ← ldrb4 data p.r1
  let q := setS q 0 r3
  let r3 ← ldrb4 data p.r4
  let q := setS q 1 r3
  let r3 ← ldrb4 data p.r5
  let q := setS q 2 r3
  let r3 ← ldrb4 data p.r6
  some (setS q 3 r3)

/-- The NEON registers, the states, the pointer `r0` to them and the pointers to the data. -/
structure Ln where
  g : Regs
  st : Bytes
  r0 : Nat
  p : Ptrs

/-- The body of `Xt4_AddLanesAll_Aligned_Loop` (s:118-128) for `get = gather base data` and of `Xt4_AddLanesAll_Unaligned_Loop` (s:133-172) for
`get = gatherB data`. -/
def addRow (get : Ptrs → Vec 4 → Option (Vec 4)) (s : Ln) : Option Ln := do
  let q0 ← vldm 0 s.st s.r0
  let q1 ← get s.p s.g.q1
  let q0 := xor q0 q1
  let st ← vstm 0 s.st s.r0 q0
  some ⟨{ s.g with q0 := q0, q1 := q1 }, st, s.r0 + 16, s.p.next⟩

/-- The transposition in `Xt4_AddLanesAll_Full` (s:177-193): `vldm r1!, {d0-d15}`, `vldm r1, {d16-d23}`, `vuzp` and `vtrn`. -/
def transpose (base : Nat) (data : Bytes) (g : Regs) : Option Regs := do
  let q0 ← vldm base data 0
  let q1 ← vldm base data 16
  let q2 ← vldm base data 32
  let q3 ← vldm base data 48
  let q4 ← vldm base data 64
  let q5 ← vldm base data 80
  let q6 ← vldm base data 96
  let q7 ← vldm base data 112
  let (q0, q6) := vuzp q0 q6
  let q8 ← vldm base data 128
  let q9 ← vldm base data 144
  let q10 ← vldm base data 160
  let q11 ← vldm base data 176
  let (q3, q9) := vuzp q3 q9
  let (q0, q3) := vtrn q0 q3
  let (q6, q9) := vtrn q6 q9
  let (q1, q7) := vuzp q1 q7
  let (q4, q10) := vuzp q4 q10
  let (q1, q4) := vtrn q1 q4
  let (q7, q10) := vtrn q7 q10
  let (q2, q8) := vuzp q2 q8
  let (q5, q11) := vuzp q5 q11
  let (q2, q5) := vtrn q2 q5
  let (q8, q11) := vtrn q8 q11
  some ⟨q0, q1, q2, q3, q4, q5, q6, q7, q8, q9, q10, q11, g.q12, g.q13, g.q14, g.q15⟩

/-- `vldm r0, {d24-d31}`, four `veor`, `vstm` (s:195-200, 201-206, 207-212); `q12`, ..., `q15` at the end are returned too. -/
def add4 (st : Bytes) (r0 : Nat) (a b c d : Vec 4) : Option (Bytes × Vec 4 × Vec 4 × Vec 4 × Vec 4) := do
  let q12 ← vldm 0 st r0
  let q13 ← vldm 0 st (r0 + 16)
  let q14 ← vldm 0 st (r0 + 32)
  let q15 ← vldm 0 st (r0 + 48)
  let q12 := xor a q12
  let q13 := xor b q13
  let q14 := xor c q14
  let q15 := xor d q15
  let st ← vstm 0 st r0 q12
  let st ← vstm 0 st (r0 + 16) q13
  let st ← vstm 0 st (r0 + 32) q14
  let st ← vstm 0 st (r0 + 48) q15
  some (st, q12, q13, q14, q15)

/-- `Xt4_AddLanesAll_Full` (s:176-213). -/
def addFull (base : Nat) (st data : Bytes) (g : Regs) : Option (Regs × Bytes) := do
  let g ← transpose base data g
  let (st, _) ← add4 st 0 g.q0 g.q6 g.q3 g.q9
  let (st, _) ← add4 st 64 g.q1 g.q7 g.q4 g.q10
  let (st, q12, q13, q14, q15) ← add4 st 128 g.q2 g.q8 g.q5 g.q11
  some ({ g with q12 := q12, q13 := q13, q14 := q14, q15 := q15 }, st)

/-- `Xoodootimes4_AddLanesAll` (s:97-213), from the contents of the NEON registers and the states to those at the return; `base` is the address of the data. -/
def addLanes (base : Nat) (g : Regs) (st data : Bytes) (laneCount laneOffset : Nat) : Option (Regs × Bytes) :=
  if laneCount = laneOffset ∧ laneCount = 12 ∧ base % 4 = 0 then addFull base st data g
  else do
    let s ← loop (addRow (if base % 4 = 0 then gather base data else gatherB data)) (2 ^ 32) laneCount ⟨g, st, 0, ptrs laneOffset⟩
    some (s.g, s.st)

/-- The body of `Xt4_OverwriteLanesAll_Aligned_Loop` (s:286-294) and of `Xt4_OverwriteLanesAll_Unaligned_Loop` (s:299-338), as for `addRow`. -/
def overwriteRow (get : Ptrs → Vec 4 → Option (Vec 4)) (s : Ln) : Option Ln := do
  let q0 ← get s.p s.g.q0
  let st ← vstm 0 s.st s.r0 q0
  some ⟨{ s.g with q0 := q0 }, st, s.r0 + 16, s.p.next⟩

/-- `Xoodootimes4_OverwriteLanesAll` (s:271-340); `base` is the address of the data. -/
def overwriteLanesAll (base : Nat) (g : Regs) (st data : Bytes) (laneCount laneOffset : Nat) : Option Bytes := do
  some (← loop (overwriteRow (if base % 4 = 0 then gather base data else gatherB data)) (2 ^ 32) laneCount ⟨g, st, 0, ptrs laneOffset⟩).st

/-- Four `vmov` from the lanes of a register and four `str` (s:411-418). -/
def scatter (base : Nat) (q : Vec 4) (out : Bytes) (p : Ptrs) : Option Bytes := do
  let out ← str base out p.r1 (q 0)
  let out ← str base out p.r4 (q 1)
  let out ← str base out p.r5 (q 2)
  str base out p.r6 (q 3)

/-- The same with `strb` and `lsr` (s:425-459, 595-629). -/
def scatterB (q : Vec 4) (out : Bytes) (p : Ptrs) : Option Bytes := do
  let out ← strb4 out p.r1 (q 0)
  let out ← strb4 out p.r4 (q 1)
  let out ← strb4 out p.r5 (q 2)
  strb4 out p.r6 (q 3)

/-- The output, the pointer to the states, the pointers to the input and those to the output, and `q0`. -/
structure Eo where
  out : Bytes
  r0 : Nat
  (p o : Ptrs)
  q0 : Vec 4

/-- The body of `Xt4_ExtractLanesAll_Aligned_Loop` (s:410-418) and of `Xt4_ExtractLanesAll_Unaligned_Loop` (s:423-461). -/
def extractRow (put : Vec 4 → Bytes → Ptrs → Option Bytes) (st : Bytes) (s : Eo) : Option Eo := do
  let q0 ← vldm 0 st s.r0
  let out ← put q0 s.out s.o
  some ⟨out, s.r0 + 16, s.p, s.o.next, q0⟩

/-- `Xoodootimes4_ExtractLanesAll` (s:396-464); `base` is the address of the output. -/
def extractLanesAll (base : Nat) (g : Regs) (st out : Bytes) (laneCount laneOffset : Nat) : Option Bytes := do
  some (← loop (extractRow (if base % 4 = 0 then scatter base else scatterB) st) (2 ^ 32) laneCount
    ⟨out, 0, ptrs laneOffset, ptrs laneOffset, g.q0⟩).out

/-- The body of `Xt4_ExtractAndAddLanesAll_Unaligned_Loop` (s:556-629); the input and the output do not overlap. -/
def extractAddRow (st input : Bytes) (s : Eo) : Option Eo := do
  let q1 ← vldm 0 st s.r0
  let q0 ← gatherB input s.p s.q0
  let q0 := xor q0 q1
  let out ← scatterB q0 s.out s.o
  some ⟨out, s.r0 + 16, s.p.next, s.o.next, q0⟩

/-- `Xoodootimes4_ExtractAndAddLanesAll` (s:540-633). -/
def extractAndAddLanesAll (g : Regs) (st input out : Bytes) (laneCount laneOffset : Nat) : Option Bytes := do
  some (← loop (extractAddRow st input) (2 ^ 32) laneCount ⟨out, 0, ptrs laneOffset, ptrs laneOffset, g.q0⟩).out

/-! ## The permutation -/

/-- The macro `theta` (s:640-711). -/
def theta (g : Regs) : Regs :=
  let ⟨q0, q1, q2, q3, q4, q5, q6, q7, q8, q9, q10, q11, q12, q13, _, _⟩ := g
  let q15 := xor q3 q7
  let q15 := xor q15 q11
  let r3 := q15 0
  let r4 := q15 1
  let r1 := q15 2
  let r2 := q15 3
  let r3 := r3.rotateRight 27
  let q14 := xor q0 q4
  let r4 := r4.rotateRight 27
  let q14 := xor q14 q8
  let r1 := r1.rotateRight 27
  let r2 := r2.rotateRight 27
  let r3 := r3 ^^^ r3.rotateRight 23
  let r4 := r4 ^^^ r4.rotateRight 23
  let r1 := r1 ^^^ r1.rotateRight 23
  let q15 := setD q15 0 r3 r4
  let r2 := r2 ^^^ r2.rotateRight 23
  let q15 := setD q15 1 r1 r2
  let r3 := q14 0
  let r4 := q14 1
  let r1 := q14 2
  let r2 := q14 3
  let r3 := r3.rotateRight 27
  let q0 := xor q0 q15
  let r4 := r4.rotateRight 27
  let q4 := xor q4 q15
  let r1 := r1.rotateRight 27
  let q8 := xor q8 q15
  let r2 := r2.rotateRight 27
  let q15 := xor q1 q5
  let r3 := r3 ^^^ r3.rotateRight 23
  let q15 := xor q15 q9
  let r4 := r4 ^^^ r4.rotateRight 23
  let r1 := r1 ^^^ r1.rotateRight 23
  let q14 := setD q14 0 r3 r4
  let r2 := r2 ^^^ r2.rotateRight 23
  let q14 := setD q14 1 r1 r2
  let r3 := q15 0
  let r4 := q15 1
  let r1 := q15 2
  let r2 := q15 3
  let r3 := r3.rotateRight 27
  let q1 := xor q1 q14
  let r4 := r4.rotateRight 27
  let q5 := xor q5 q14
  let r1 := r1.rotateRight 27
  let q9 := xor q9 q14
  let r2 := r2.rotateRight 27
  let q14 := xor q2 q6
  let r3 := r3 ^^^ r3.rotateRight 23
  let q14 := xor q14 q10
  let r4 := r4 ^^^ r4.rotateRight 23
  let r1 := r1 ^^^ r1.rotateRight 23
  let q15 := setD q15 0 r3 r4
  let r2 := r2 ^^^ r2.rotateRight 23
  let q15 := setD q15 1 r1 r2
  let r3 := q14 0
  let r4 := q14 1
  let r1 := q14 2
  let r2 := q14 3
  let r3 := r3.rotateRight 27
  let q2 := xor q2 q15
  let r4 := r4.rotateRight 27
  let q6 := xor q6 q15
  let r1 := r1.rotateRight 27
  let q10 := xor q10 q15
  let r2 := r2.rotateRight 27
  let r3 := r3 ^^^ r3.rotateRight 23
  let r4 := r4 ^^^ r4.rotateRight 23
  let r1 := r1 ^^^ r1.rotateRight 23
  let q14 := setD q14 0 r3 r4
  let r2 := r2 ^^^ r2.rotateRight 23
  let q14 := setD q14 1 r1 r2
  let q3 := xor q3 q14
  let q7 := xor q7 q14
  let q11 := xor q11 q14
  ⟨q0, q1, q2, q3, q4, q5, q6, q7, q8, q9, q10, q11, q12, q13, q14, q15⟩

/-- The macro `rho_w` (s:715-731). -/
def rhoW (g : Regs) : Regs :=
  let ⟨q0, q1, q2, q3, q4, q5, q6, q7, q8, q9, q10, q11, q12, _, _, _⟩ := g
  let r1 := q8 0
  let r2 := q8 1
  let q13 := slli q9 11
  let r3 := q8 2
  let r4 := q8 3
  let q13 := vsri q13 q9 21
  let r1 := r1.rotateRight 21
  let q14 := slli q10 11
  let r2 := r2.rotateRight 21
  let q14 := vsri q14 q10 21
  let r3 := r3.rotateRight 21
  let q15 := slli q11 11
  let r4 := r4.rotateRight 21
  let q15 := vsri q15 q11 21
  let q12 := setD q12 0 r1 r2
  let q12 := setD q12 1 r3 r4
  ⟨q0, q1, q2, q3, q4, q5, q6, q7, q8, q9, q10, q11, q12, q13, q14, q15⟩

/-- The macro `chi`, with `r3` the round constant (s:736-766). -/
def chi (r3 : Lane) (g : Regs) : Regs :=
  let ⟨q0, q1, q2, q3, q4, q5, q6, q7, _, _, _, _, q12, q13, q14, q15⟩ := g
  let q8 := set1 r3
  let q0 := xor q0 q8
  let q11 := vbic q12 q7
  let q9 := vbic q0 q12
  let q10 := vbic q7 q0
  let q8 := xor q10 q12
  let q12 := xor q7 q9
  let q0 := xor q0 q11
  let q7 := vbic q13 q4
  let q10 := vbic q1 q13
  let q11 := vbic q4 q1
  let q9 := xor q11 q13
  let q13 := xor q4 q10
  let q1 := xor q1 q7
  let q4 := vbic q14 q5
  let q11 := vbic q2 q14
  let q7 := vbic q5 q2
  let q10 := xor q7 q14
  let q14 := xor q5 q11
  let q2 := xor q2 q4
  let q5 := vbic q15 q6
  let q7 := vbic q3 q15
  let q4 := vbic q6 q3
  let q4 := xor q4 q15
  let q15 := xor q6 q7
  let q3 := xor q3 q5
  ⟨q0, q1, q2, q3, q4, q5, q6, q7, q8, q9, q10, q11, q12, q13, q14, q15⟩

/-- The macro `rho_e` (s:770-797). -/
def rhoE (g : Regs) : Regs :=
  let ⟨q0, q1, q2, q3, q4, _, _, _, q8, q9, q10, _, q12, q13, q14, q15⟩ := g
  let q11 := slli q9 8
  let q11 := vsri q11 q9 24
  let q9 := slli q4 8
  let q9 := vsri q9 q4 24
  let r1 := q8 0
  let r2 := q8 1
  let r3 := q8 2
  let r4 := q8 3
  let r1 := r1.rotateRight 24
  let q8 := slli q10 8
  let r2 := r2.rotateRight 24
  let q8 := vsri q8 q10 24
  let r3 := r3.rotateRight 24
  let q10 := setD q10 0 r1 r2
  let r4 := r4.rotateRight 24
  let q10 := setD q10 1 r3 r4
  let q4 := slli q12 1
  let q4 := vsri q4 q12 31
  let q5 := slli q13 1
  let q5 := vsri q5 q13 31
  let q6 := slli q14 1
  let q6 := vsri q6 q14 31
  let q7 := slli q15 1
  let q7 := vsri q7 q15 31
  ⟨q0, q1, q2, q3, q4, q5, q6, q7, q8, q9, q10, q11, q12, q13, q14, q15⟩

/-- A round: `theta`, `rho_w`, `mov r3, #rc`, `chi`, `rho_e` (s:812-816 and so on). -/
def round (rc : Lane) (g : Regs) : Regs := rhoE (chi rc (rhoW (theta g)))

/-- `vldm r0!, {d0-d15}`, `vldm r0, {d16-d23}` (s:809-810, 862-863). -/
def vldm12 (st : Bytes) (g : Regs) : Option Regs := do
  let q0 ← vldm 0 st 0
  let q1 ← vldm 0 st 16
  let q2 ← vldm 0 st 32
  let q3 ← vldm 0 st 48
  let q4 ← vldm 0 st 64
  let q5 ← vldm 0 st 80
  let q6 ← vldm 0 st 96
  let q7 ← vldm 0 st 112
  let q8 ← vldm 0 st 128
  let q9 ← vldm 0 st 144
  let q10 ← vldm 0 st 160
  let q11 ← vldm 0 st 176
  some { g with q0 := q0, q1 := q1, q2 := q2, q3 := q3, q4 := q4, q5 := q5, q6 := q6, q7 := q7, q8 := q8, q9 := q9, q10 := q10, q11 := q11 }

/-- `vstm r0!, {d0-d15}`, `vstm r0, {d16-d23}` (s:848-849, 938-939). -/
def vstm12 (st : Bytes) (g : Regs) : Option Bytes := do
  let st ← vstm 0 st 0 g.q0
  let st ← vstm 0 st 16 g.q1
  let st ← vstm 0 st 32 g.q2
  let st ← vstm 0 st 48 g.q3
  let st ← vstm 0 st 64 g.q4
  let st ← vstm 0 st 80 g.q5
  let st ← vstm 0 st 96 g.q6
  let st ← vstm 0 st 112 g.q7
  let st ← vstm 0 st 128 g.q8
  let st ← vstm 0 st 144 g.q9
  let st ← vstm 0 st 160 g.q10
  vstm 0 st 176 g.q11

/-- `Xoodootimes4_PermuteAll_6rounds` (s:806-852). -/
def permute6 (g : Regs) (st : Bytes) : Option Bytes := do
  let g ← vldm12 st g
  let g := round 0x00000060 g
  let g := round 0x0000002C g
  let g := round 0x00000380 g
  let g := round 0x000000F0 g
  let g := round 0x000001A0 g
  let g := round 0x00000012 g
  vstm12 st g

/-- `Xoodootimes4_PermuteAll_12rounds` (s:859-942). -/
def permute12 (g : Regs) (st : Bytes) : Option Bytes := do
  let g ← vldm12 st g
  let g := round 0x00000058 g
  let g := round 0x00000038 g
  let g := round 0x000003C0 g
  let g := round 0x000000D0 g
  let g := round 0x00000120 g
  let g := round 0x00000014 g
  let g := round 0x00000060 g
  let g := round 0x0000002C g
  let g := round 0x00000380 g
  let g := round 0x000000F0 g
  let g := round 0x000001A0 g
  let g := round 0x00000012 g
  vstm12 st g

/-- `PermuteAll_6rounds` for `.r6` and `PermuteAll_12rounds` for `.r12`.  The header has nothing for the other two, which stand here for 12 rounds. -/
def permuteAll (g : Regs) (p : Perm) (st : Bytes) : Option Bytes :=
  match p with
  | .r6 => permute6 g st
  | _ => permute12 g st

/-- The addresses of the buffers in the calls of the functions. -/
structure Addr where
  (data input output : Nat)

/-- The implementation (Xoodoo-times4-SnP.h:24-50); `g` are the contents of the NEON registers when a function is called.  The address of the output of
`Xoodootimes4_ExtractLanesAll` is `A.output`. -/
def impl (g : Regs) (A : Addr) : Par where
  par := 4
  size := 192
  align := 16
  lane := 4
  initAll := initAll
  addByte := addByte
  addBytes := addBytes
  addLanesAll := fun st data lc lo => (addLanes A.data g st data lc lo).map Prod.snd
  overwriteBytes := overwriteBytes A.data
  overwriteLanesAll := overwriteLanesAll A.data g
  overwriteWithZeroes := overwriteWithZeroes
  permuteAll := permuteAll g
  extractBytes := extractBytes
  extractLanesAll := extractLanesAll A.output g
  extractAndAddBytes := extractAndAddBytes A.input A.output
  extractAndAddLanesAll := extractAndAddLanesAll g

end XoodooTimes4Neon
