import Verif.Model.XoodooArm
import Verif.Model.XoodooPlanes

/-!
# Xoodoo, Xoofff and Xoodyak in ARMv7-A NEON assembly

Models `lib/low/Xoodoo/ARMv7A-NEON/Xoodoo-uf-armv7a-neon-le-gcc.s` ("s" below) and `Xoodyak-uf-armv7a-neon-le-gcc.s` ("y" below)
with `Xoodoo-SnP.h` in the same directory.  The `armcc` files are the same programs in the syntax of another assembler.

* The registers `q0`-`q15` are functions from the position of a 32-bit lane, lane 0 being the least significant one; `d(2k)` and `d(2k+1)` are
  the lower and the upper half of `qk`.  The meaning of the instructions is taken from the ARMv7-A manual.
* The pointer `r1` to the round constants is an offset in bytes from the start of the table; a read outside of the table gives `none`.
* The state, the mask and the accumulators are arrays of 12 words.  Other buffers are lists of bytes with an offset, a read or write outside
  of a buffer gives `none`; the alignment of `vld1.32` and `vst1.32` is not modelled (unaligned accesses are allowed with these element sizes
  unless the operating system forbids all unaligned accesses).  Buffers do not overlap, except those of the functions for encryption and
  decryption.
* `size_t`, `unsigned int` and the counters have 32 bits; running out of fuel gives `none`.
* Pushing and popping the registers of the caller is not modelled; the pointers to the buffers are variables, of which the other instructions
  that write `r1` do not touch one that is in use: where `r1` is a parameter it has been copied or is not used any more.
-/

namespace XoodooNeon

open Xoodoo (Lane Lanes wordOfBytes bytesOfWord bytesOfLanes)
open Simd32 (Vec loadWord storeWord loadVec storeVec)
open XoodooArm (sub32 add32 blockLoop Wr addWord addOne addBits)
open XoodooPlanes (Planes)

/-- The vector registers and the pointer to the round constants. -/
structure M where
  q : Nat → Vec 4
  rc : Nat

/-- A register is written. -/
def M.set (m : M) (d : Nat) (v : Vec 4) : M := { m with q := fun i => if i = d then v else m.q i }

/-- The low (`j = 0`) or high (`j = 1`) word of `d` register `n`. -/
def M.dw (m : M) (n j : Nat) : Lane := (m.q (n / 2)).at (2 * (n % 2) + j)

/-- Register `d` number `n` is written with two words. -/
def M.setD (m : M) (n : Nat) (lo hi : Lane) : M :=
  m.set (n / 2) fun l => if l.val = 2 * (n % 2) then lo else if l.val = 2 * (n % 2) + 1 then hi else m.q (n / 2) l

/-- `veor.32 qd, qn, qm`. -/
def veor (d n k : Nat) (m : M) : M := m.set d fun l => m.q n l ^^^ m.q k l

/-- `vand.32 qd, qn, qm`. -/
def vand (d n k : Nat) (m : M) : M := m.set d fun l => m.q n l &&& m.q k l

/-- `vbic.32 qd, qn, qm`. -/
def vbic (d n k : Nat) (m : M) : M := m.set d fun l => m.q n l &&& ~~~ m.q k l

/-- `vext.32 qd, qn, qm, #i`: four lanes of `qn` followed by `qm`, from lane `i`. -/
def vext (d n k i : Nat) (m : M) : M :=
  m.set d fun l => if l.val + i < 4 then (m.q n).at (l.val + i) else (m.q k).at (l.val + i - 4)

/-- `vshl.u32 qd, qm, #i`. -/
def vshl (d k i : Nat) (m : M) : M := m.set d fun l => m.q k l <<< i

/-- `vsri.u32 qd, qm, #i`: the upper `i` bits of the lanes of `qd` are kept. -/
def vsri (d k i : Nat) (m : M) : M :=
  m.set d fun l => (m.q d l &&& ~~~ ((BitVec.allOnes 32) >>> i)) ||| m.q k l >>> i

/-- `vmov qd, qm`. -/
def vmov (d k : Nat) (m : M) : M := m.set d (m.q k)

/-- `vmov.i32 qd, #c`. -/
def vmovImm (d : Nat) (c : Lane) (m : M) : M := m.set d fun _ => c

/-- `veor.32 dd, dn, dm`. -/
def veorD (d n k : Nat) (m : M) : M := m.setD d (m.dw n 0 ^^^ m.dw k 0) (m.dw n 1 ^^^ m.dw k 1)

/-- `vmov dd, dm`. -/
def vmovD (d k : Nat) (m : M) : M := m.setD d (m.dw k 0) (m.dw k 1)

/-- `vmov.i32 dd, #c`. -/
def vmovImmD (d : Nat) (c : Lane) (m : M) : M := m.setD d c c

/-- `vshr.u64 dd, dm, #32`. -/
def vshr32D (d k : Nat) (m : M) : M := m.setD d (m.dw k 1) 0

/-- `vldmia r1!, {dd}`, where `r1` points into the table of round constants `tab` (as words). -/
def vldRc (tab : List Lane) (d : Nat) (m : M) : Option M := do
  let lo ← tab[m.rc / 4]?
  let hi ← tab[m.rc / 4 + 1]?
  some { m.setD d lo hi with rc := m.rc + 8 }

/-- `mRound` up to the load of the round constant (s:193-209, y:29-44). -/
def mRoundA (m : M) : M :=
  let m := veor 4 0 1 m
  let m := veor 4 4 2 m
  let m := vext 4 4 4 3 m
  let m := vshl 3 4 5 m
  let m := vsri 3 4 (32 - 5) m
  let m := vshl 5 4 14 m
  let m := vsri 5 4 (32 - 14) m
  let m := veor 3 3 5 m
  let m := veor 0 0 3 m
  let m := veor 1 1 3 m
  let m := veor 5 2 3 m
  let m := vshl 2 5 11 m
  vext 1 1 1 3 m

/-- `mRound` after the load of the round constant (s:211-226, y:46-62). -/
def mRoundB (m : M) : M :=
  let m := vsri 2 5 (32 - 11) m
  let m := veorD 0 0 6 m
  let m := vbic 3 2 1 m
  let m := vbic 4 0 2 m
  let m := vbic 5 1 0 m
  let m := veor 0 0 3 m
  let m := veor 4 1 4 m
  let m := veor 2 2 5 m
  let m := vext 5 2 2 2 m
  let m := vshl 1 4 1 m
  let m := vshl 2 5 8 m
  let m := vsri 1 4 (32 - 1) m
  vsri 2 5 (32 - 8) m

/-- `mRound` (s:190-227, y:26-63). -/
def mRound (tab : List Lane) (m : M) : Option M := do
  let m ← vldRc tab 6 (mRoundA m)
  some (mRoundB m)

/-- `mRound`, `n` times in a row. -/
def mRounds (tab : List Lane) : Nat → M → Option M
  | 0, m => some m
  | n + 1, m => do
    let m ← mRound tab m
    mRounds tab n m

/-- `.quad c`, for each constant of a list. -/
def quads : List Lane → List Lane
  | [] => []
  | c :: cs => c :: 0 :: quads cs

/-- The table at `_rc12` (s:250-263), of which `_rc6` (s:257) is the second half; also `_rc12` of y:88-100. -/
def tab12 : List Lane :=
  quads ([0x00000058, 0x00000038, 0x000003C0, 0x000000D0, 0x00000120, 0x00000014] ++
    [0x00000060, 0x0000002C, 0x00000380, 0x000000F0, 0x000001A0, 0x00000012])

/-- The table at `_rc6b` (s:422-428). -/
def tab6b : List Lane := quads [0x00000060, 0x0000002C, 0x00000380, 0x000000F0, 0x000001A0, 0x00000012]

/-- `vldmia r0, {q0-q2}` (s:237, 274, y:128 etc.). -/
def ldState (A : Lanes) (m : M) : M :=
  let m := m.set 0 fun l => A ⟨l.val, by omega⟩
  let m := m.set 1 fun l => A ⟨4 + l.val, by omega⟩
  m.set 2 fun l => A ⟨8 + l.val, by omega⟩

/-- Three registers as 12 words, for `vstmia r0, {q0-q2}` (s:245, 288, y:140 etc.). -/
def words (a b c : Vec 4) : Lanes := fun i => if i.val < 4 then a.at i.val else if i.val < 8 then b.at (i.val - 4) else c.at (i.val - 8)

/-- `vstmia r0, {q0-q2}`. -/
def stState (m : M) : Lanes := words (m.q 0) (m.q 1) (m.q 2)

/-- `Xoodoo_Permute_6rounds` (s:235-247); `m` are the registers of the caller. -/
def permute6 (m : M) (A : Lanes) : Option Lanes := do
  let m ← mRounds tab12 6 { ldState A m with rc := 48 }
  some (stState m)

/-- `Xoodoo_Permute_12rounds` (s:272-290). -/
def permute12 (m : M) (A : Lanes) : Option Lanes := do
  let m ← mRounds tab12 12 { ldState A m with rc := 0 }
  some (stState m)

/-- `Xoodoo_Initialize` (s:29-34): `q0` is set to 0 and stored three times. -/
def initState (m : M) : Lanes := let m := vmovImm 0 0 m; words (m.q 0) (m.q 0) (m.q 0)

/-- The functions that access the bytes of a state.  Their instructions (s:44-184) are those of `../ARM/Xoodoo-uf-armv7m-le-gcc.s`, and so is the
macro `Xoodoo_AddByte` (Xoodoo-SnP.h:36). -/
def access (m : M) : Access Bytes where
  init := bytesOfLanes (initState m)
  addByte := XoodooArm.addByte
  addBytes := XoodooArm.addBytes
  overwriteBytes := XoodooArm.overwriteBytes
  overwriteWithZeroes := XoodooArm.overwriteWithZeroes
  extractBytes := XoodooArm.extractBytes
  extractAndAddBytes := XoodooArm.extractAndAddBytes

/-! ### Xoofff -/

/-- `vld1.32 {qd}, [p]!` without the increment of the pointer. -/
def vld1 (buf : Bytes) (p d : Nat) (m : M) : Option M := do
  let v ← loadVec 4 buf p
  some (m.set d v)

/-- The body of `Xoofff_AddIs_BlockLoop` (s:305-314). -/
def addBlock (m : M) (input : Bytes) (s : Wr) : Option Wr := do
  let r1 := s.r1
  let m ← vld1 input r1 0 m
  let m ← vld1 input (r1 + 16) 1 m
  let r1 := r1 + 32
  let m ← vld1 input r1 2 m
  let r1 := r1 + 16
  let r0 := s.r0
  let m ← vld1 s.st r0 8 m
  let m ← vld1 s.st (r0 + 16) 9 m
  let r0 := r0 + 32
  let m ← vld1 s.st r0 10 m
  let r0 := r0 + 16
  let m := veor 8 8 0 m
  let r0 := r0 - 48
  let m := veor 9 9 1 m
  let m := veor 10 10 2 m
  let st ← storeVec s.st r0 (m.q 8)
  let st ← storeVec st (r0 + 16) (m.q 9)
  let r0 := r0 + 32
  let st ← storeVec st r0 (m.q 10)
  some ⟨st, r0 + 16, r1⟩

/-- The body of `Xoofff_AddIs_16Loop` (s:323-326). -/
def add16 (m : M) (input : Bytes) (s : Wr) : Option Wr := do
  let m ← vld1 input s.r1 0 m
  let m ← vld1 s.st s.r0 1 m
  let m := veor 1 1 0 m
  let st ← storeVec s.st s.r0 (m.q 1)
  some ⟨st, s.r0 + 16, s.r1 + 16⟩

/-- `Xoofff_AddIs` (s:301-365).  After each loop, `adds` gives the number of bits left, and `beq` returns if it is 0.  The loops on words and on
bytes (s:335-338, 347-350) have the instructions of the loops of `Xoodoo_AddBytes`, and the last bits (s:356-363) are added as in `XoodooArm.addIs`.
No loop uses the vector registers left by another. -/
def addIs (m : M) (output input : Bytes) (bitLen : Nat) : Option Bytes := do
  let st ← blockLoop (48 * 8) (addBlock m input) (2 ^ 32) ⟨output, 0, 0⟩ bitLen
  let n := add32 st.2 (48 * 8)
  if n = 0 then some st.1.st
  else do
    let st ← blockLoop (16 * 8) (add16 m input) (2 ^ 32) st.1 n
    let n := add32 st.2 (16 * 8)
    if n = 0 then some st.1.st
    else do
      let st ← blockLoop (4 * 8) (addWord input) (2 ^ 32) st.1 n
      let n := add32 st.2 (4 * 8)
      if n = 0 then some st.1.st
      else do
        let st ← blockLoop 8 (addOne input) (2 ^ 32) st.1 n
        let n := add32 st.2 8
        if n = 0 then some st.1.st else addBits input st.1 n

/-- Loading 12 words to three registers, the first of which is `d` (s:382-385, 443-446). -/
def ld3 (A : Lanes) (d : Nat) (m : M) : M :=
  let m := m.set d fun l => A ⟨l.val, by omega⟩
  let m := m.set (d + 1) fun l => A ⟨4 + l.val, by omega⟩
  m.set (d + 2) fun l => A ⟨8 + l.val, by omega⟩

/-- The loads and the addition of the mask in `Xoofff_CompressFastLoop` (s:387-392), with the input at `p`. -/
def compressIn (input : Bytes) (p : Nat) (m : M) : Option M := do
  let m ← vld1 input p 0 m
  let m ← vld1 input (p + 16) 1 m
  let m := { m with rc := 0 }
  let m ← vld1 input (p + 32) 2 m
  let m := veor 0 0 6 m
  let m := veor 1 1 7 m
  some (veor 2 2 8 m)

/-- "Add into xAccu" and "roll-c kRoll" (s:399-410). -/
def compressOut (m : M) : M :=
  let m := veor 9 9 0 m
  let m := veor 10 10 1 m
  let m := veor 11 11 2 m
  let m := vshl 3 6 13 m
  let m := veor 3 3 6 m
  let m := vshl 4 7 3 m
  let m := vsri 4 7 (32 - 3) m
  let m := veor 3 3 4 m
  let m := vext 3 6 3 1 m
  let m := vmov 6 7 m
  let m := vmov 7 8 m
  vmov 8 3 m

/-- The loop of `Xoofff_CompressFastLoop` (s:386-412): the registers and the pointer to the input. -/
def compressLoop (input : Bytes) : Nat → M → Nat → Nat → Option (M × Nat)
  | 0, _, _, _ => none
  | fuel + 1, m, p, n => do
    let m ← compressIn input p m
    let m ← mRounds tab6b 6 m
    let m := compressOut m
    if n < 48 then some (m, p + 48) else compressLoop input fuel m (p + 48) (sub32 n 48)

/-- `Xoofff_CompressFastLoop` (s:375-419): the mask, the accumulator and the return value. -/
def compressFastLoop (m : M) (kRoll xAccu : Lanes) (input : Bytes) (length : Nat) : Option (Lanes × Lanes × Nat) := do
  let st ← compressLoop input (2 ^ 32) (ld3 xAccu 9 (ld3 kRoll 6 m)) 0 (sub32 length 48)
  some (words (st.1.q 6) (st.1.q 7) (st.1.q 8), words (st.1.q 9) (st.1.q 10) (st.1.q 11), st.2)

/-- The moves before the permutation in `Xoofff_ExpandFastLoop` (s:448-451). -/
def expandIn (m : M) : M :=
  let m := vmov 0 9 m
  let m := vmov 1 10 m
  let m := vmov 2 11 m
  { m with rc := 0 }

/-- "Add k and extract" (s:458-462), with the output at `p`. -/
def expandStore (m : M) (out : Bytes) (p : Nat) : Option (M × Bytes) := do
  let m := veor 0 0 6 m
  let m := veor 1 1 7 m
  let m := veor 2 2 8 m
  let out ← storeVec out p (m.q 0)
  let out ← storeVec out (p + 16) (m.q 1)
  let out ← storeVec out (p + 32) (m.q 2)
  some (m, out)

/-- "Roll-e yAccu" (s:463-475). -/
def expandRoll (m : M) : M :=
  let m := vshl 3 9 5 m
  let m := vsri 3 9 (32 - 5) m
  let m := vshl 4 10 13 m
  let m := vsri 4 10 (32 - 13) m
  let m := veor 3 3 4 m
  let m := vand 4 10 11 m
  let m := veor 3 3 4 m
  let m := vmovImm 4 7 m
  let m := veor 3 3 4 m
  let m := vext 3 9 3 1 m
  let m := vmov 9 10 m
  let m := vmov 10 11 m
  vmov 11 3 m

/-- The loop of `Xoofff_ExpandFastLoop` (s:447-477): the registers, the output and the pointer to it. -/
def expandLoop : Nat → M → Bytes → Nat → Nat → Option (M × Bytes × Nat)
  | 0, _, _, _, _ => none
  | fuel + 1, m, out, p, n => do
    let m ← mRounds tab6b 6 (expandIn m)
    let s ← expandStore m out p
    let m := expandRoll s.1
    if n < 48 then some (m, s.2, p + 48) else expandLoop fuel m s.2 (p + 48) (sub32 n 48)

/-- `Xoofff_ExpandFastLoop` (s:437-482): the accumulator, the output buffer and the return value. -/
def expandFastLoop (m : M) (yAccu kRoll : Lanes) (output : Bytes) (length : Nat) : Option (Lanes × Bytes × Nat) := do
  let st ← expandLoop (2 ^ 32) (ld3 yAccu 9 (ld3 kRoll 6 m)) output 0 (sub32 length 48)
  some (words (st.1.q 9) (st.1.q 10) (st.1.q 11), st.2.1, st.2.2)

/-! ### Xoodyak -/

/-- `Xoodoo_Permute_12roundsAsm` (y:71-85). -/
def permute12Asm (m : M) : Option M := mRounds tab12 12 { m with rc := 0 }

/-- `vld1.32 {dd}, [p]!` without the increment of the pointer. -/
def vld1D (buf : Bytes) (p d : Nat) (m : M) : Option M := do
  let lo ← loadWord buf p
  let hi ← loadWord buf (p + 4)
  some (m.setD d lo hi)

/-- `vst1.32 {dd}, [p]!` without the increment of the pointer. -/
def vst1D (buf : Bytes) (p d : Nat) (m : M) : Option Bytes := do
  let buf ← storeWord buf p (m.dw d 0)
  storeWord buf (p + 4) (m.dw d 1)

/-- The block in `Xoodyak_AbsorbKeyedFullBlocks` (y:132-137): `X` and the pointer to it. -/
def addKeyed (X : Bytes) (p : Nat) (m : M) : Option (M × Nat) := do
  let m ← vld1 X p 3 m
  let m ← vld1 X (p + 16) 4 m
  let p := p + 32
  let m ← vld1D X p 12 m
  let p := p + 8
  let w ← loadWord X p
  let m := m.setD 13 w (m.dw 13 1)
  let p := p + 4
  let m := veor 0 0 3 m
  let m := veor 1 1 4 m
  some (veor 2 2 6 m, p)

/-- The block in `Xoodyak_AbsorbHashFullBlocks` (y:177-179). -/
def addHash (X : Bytes) (p : Nat) (m : M) : Option (M × Nat) := do
  let m ← vld1 X p 3 m
  let m := veorD 2 2 12 m
  some (veor 0 0 3 m, p + 16)

/-- The loops of `Xoodyak_AbsorbKeyedFullBlocks` (y:130-139) and `Xoodyak_AbsorbHashFullBlocks` (y:175-181). -/
def absorbLoop (add : Nat → M → Option (M × Nat)) (rate : Nat) : Nat → M → Nat → Nat → Option (M × Nat)
  | 0, _, _, _ => none
  | fuel + 1, m, p, n => do
    let m ← permute12Asm m
    let s ← add p m
    if n < rate then some s else absorbLoop add rate fuel s.1 s.2 (sub32 n rate)

/-- `Xoodyak_AbsorbKeyedFullBlocks` (y:122-143): the state and the return value, which is the difference of two pointers. -/
def absorbKeyedFullBlocks (m : M) (A : Lanes) (X : Bytes) (XLen : Nat) : Option (Lanes × Nat) := do
  let s ← absorbLoop (addKeyed X) 44 (2 ^ 32) (ldState A (vmovImmD 13 1 m)) 0 (sub32 XLen 44)
  some (stState s.1, s.2 - 0)

/-- `Xoodyak_AbsorbHashFullBlocks` (y:166-185). -/
def absorbHashFullBlocks (m : M) (A : Lanes) (X : Bytes) (XLen : Nat) : Option (Lanes × Nat) := do
  let s ← absorbLoop (addHash X) 16 (2 ^ 32) (ldState A (vshr32D 12 12 (vmovImmD 12 1 m))) 0 (sub32 XLen 16)
  some (stState s.1, s.2 - 0)

/-- The stores in `Xoodyak_SqueezeKeyedFullBlocks` (y:220-221). -/
def storeKeyed (m : M) (Y : Bytes) (p : Nat) : Option (Bytes × Nat) := do
  let Y ← storeVec Y p (m.q 0)
  let Y ← vst1D Y (p + 16) 2 m
  some (Y, p + 16 + 8)

/-- The store in `Xoodyak_SqueezeHashFullBlocks` (y:262). -/
def storeHash (m : M) (Y : Bytes) (p : Nat) : Option (Bytes × Nat) := do
  let Y ← storeVec Y p (m.q 0)
  some (Y, p + 16)

/-- The loops of `Xoodyak_SqueezeKeyedFullBlocks` (y:217-223) and `Xoodyak_SqueezeHashFullBlocks` (y:259-264). -/
def squeezeLoop (store : M → Bytes → Nat → Option (Bytes × Nat)) (rate : Nat) : Nat → M → Bytes → Nat → Nat → Option (M × Bytes × Nat)
  | 0, _, _, _, _ => none
  | fuel + 1, m, Y, p, n => do
    let m ← permute12Asm (veorD 0 0 12 m)
    let s ← store m Y p
    if n < rate then some (m, s.1, s.2) else squeezeLoop store rate fuel m s.1 s.2 (sub32 n rate)

/-- `Xoodyak_SqueezeKeyedFullBlocks` (y:208-227): the state, the output buffer and the return value. -/
def squeezeKeyedFullBlocks (m : M) (A : Lanes) (Y : Bytes) (YLen : Nat) : Option (Lanes × Bytes × Nat) := do
  let s ← squeezeLoop storeKeyed 24 (2 ^ 32) (ldState A (vshr32D 12 12 (vmovImmD 12 1 m))) Y 0 (sub32 YLen 24)
  some (stState s.1, s.2.1, s.2.2 - 0)

/-- `Xoodyak_SqueezeHashFullBlocks` (y:250-268). -/
def squeezeHashFullBlocks (m : M) (A : Lanes) (Y : Bytes) (YLen : Nat) : Option (Lanes × Bytes × Nat) := do
  let s ← squeezeLoop storeHash 16 (2 ^ 32) (ldState A (vshr32D 12 12 (vmovImmD 12 1 m))) Y 0 (sub32 YLen 16)
  some (stState s.1, s.2.1, s.2.2 - 0)

/-- The block in `Xoodyak_EncryptFullBlocks` (y:304-310), with the input at `p` and the output at `o` of the memory, which may overlap; the
same instructions in `Xoodyak_DecryptFullBlocks` (y:351-356). -/
def encryptBlock (m : M) (mem : Bytes) (p o : Nat) : Option (M × Bytes) := do
  let m ← vld1 mem p 3 m
  let m ← vld1D mem (p + 16) 12 m
  let m := veor 0 0 3 m
  let m := veor 1 1 6 m
  let mem ← storeVec mem o (m.q 0)
  let mem ← vst1D mem (o + 16) 2 m
  some (m, mem)

/-- The block in `Xoodyak_DecryptFullBlocks` (y:351-359). -/
def decryptBlock (m : M) (mem : Bytes) (p o : Nat) : Option (M × Bytes) := do
  let s ← encryptBlock m mem p o
  let m := vmov 0 3 s.1
  some (vmovD 2 12 m, s.2)

/-- The loops of `Xoodyak_EncryptFullBlocks` (y:302-311) and `Xoodyak_DecryptFullBlocks` (y:349-360); both pointers advance by 24 in `block`. -/
def cryptLoop (block : M → Bytes → Nat → Nat → Option (M × Bytes)) : Nat → M → Bytes → Nat → Nat → Nat → Option (M × Bytes × Nat)
  | 0, _, _, _, _, _ => none
  | fuel + 1, m, mem, p, o, n => do
    let m ← permute12Asm m
    let s ← block m mem p o
    if n < 24 then some (s.1, s.2, p + 24) else cryptLoop block fuel s.1 s.2 (p + 24) (o + 24) (sub32 n 24)

/-- `Xoodyak_EncryptFullBlocks` (y:293-315) and `Xoodyak_DecryptFullBlocks` (y:340-364), with the input at `i` and the output at `o` of the
memory: the state, the memory and the return value. -/
def cryptFullBlocks (decrypt : Bool) (m : M) (A : Lanes) (mem : Bytes) (i o IOLen : Nat) : Option (Lanes × Bytes × Nat) := do
  let s ← cryptLoop (if decrypt then decryptBlock else encryptBlock) (2 ^ 32) (ldState A (vshr32D 13 13 (vmovImmD 13 1 m))) mem i o
    (sub32 IOLen 24)
  some (stState s.1, s.2.1, s.2.2 - i)

end XoodooNeon
