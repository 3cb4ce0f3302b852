import Verif.Base.Bytes

/-!
# The functions on bytes in the AVR8 assembly of Keccak-p[1600] and Xoodoo

A model of the functions on bytes of `lib/low/KeccakP-1600/AVR8/KeccakP-1600-avr8-compact.s` (cited as `c`), of `KeccakP-1600-avr8-fast.s` in the same directory (cited as `f`)
and of `lib/low/Xoodoo/AVR8/Xoodoo-avr8-u1.s` (cited as `x`), instruction by instruction.  Lines 47-360 of the last two have the same instructions, but for a constant.
The permutations are not modelled.

The data memory is a function of addresses of 16 bits, and the pointers `X`, `Y`, `Z` are addresses in it, so that buffers may overlap.  A `ld` or `st` at an address below
`0x60`, where the registers and the I/O space are mapped, gives `none`.  The other registers are bytes; the
register `r1` (`zero`) is 0, as the calling convention demands.  `push` and `pop` (c:186-188, 201-203; f, x:299-301, 356-358) are not modelled: the stack does not overlap with the
buffers.
-/

namespace Avr8

/-- The data memory. -/
abbrev Mem := BitVec 16 → Byte

/-- `ld r, P`. -/
def ld (m : Mem) (a : BitVec 16) : Option Byte := if a.toNat < 0x60 then none else some (m a)

/-- `st P, r`. -/
def st (m : Mem) (a : BitVec 16) (r : Byte) : Option Mem := if a.toNat < 0x60 then none else some fun i => if i = a then r else m i

/-- `add rZ, r`, `adc rZ+1, zero`: the carry goes from the lower to the upper byte of the pointer. -/
def addPtr (z : BitVec 16) (r : Byte) : BitVec 16 :=
  let lo := z.toNat % 256 + r.toNat
  let hi := z.toNat / 256 + lo / 256
  BitVec.ofNat 16 (hi % 256 * 256 + lo % 256)

/-- The memory and the pointers. -/
structure Rg where
  m : Mem
  (x y z : BitVec 16)

/-- A loop that ends with `dec r`, `brne` (c:51-54, 93-99, and so on). -/
def loop1 (body : Rg → Option Rg) : Nat → Byte → Rg → Option Rg
  | 0, _, _ => none
  | fuel + 1, r, s => do
    let s ← body s
    let r := r - 1
    if r = 0 then some s else loop1 body fuel r s

/-- `tst r`, `breq` and a loop (c:87-99, 114-124, 137-143, 158-168, 184-200). -/
def compact (body : Rg → Option Rg) (r : Byte) (s : Rg) : Option Rg := if r = 0 then some s else loop1 body 256 r s

/-- Eight copies of a body. -/
def eight (body : Rg → Option Rg) (s : Rg) : Option Rg := do
  let s ← body s
  let s ← body s
  let s ← body s
  let s ← body s
  let s ← body s
  let s ← body s
  let s ← body s
  body s

/-- A loop on eight bytes that ends with `subi r, 8`, `brcc` (f, x:101-135, 169-187, 254-272, 309-343). -/
def loop8 (body : Rg → Option Rg) : Nat → Byte → Rg → Option (Rg × Byte)
  | 0, _, _ => none
  | fuel + 1, r, s => do
    let s ← eight body s
    if r.toNat < 8 then some (s, r - 8) else loop8 body fuel (r - 8) s

/-- `subi r, 8`, `brcs`, the loop on eight bytes, `ldi r19, 8`, `add r, r19`, `breq`, the loop on bytes (f, x:98-146, 166-196, 251-281, 307-354). -/
def fast (body : Rg → Option Rg) (r : Byte) (s : Rg) : Option Rg := do
  let (s, r) ← if r.toNat < 8 then some (s, r - 8) else loop8 body 256 (r - 8) s
  let r := r + 8
  if r = 0 then some s else loop1 body 256 r s

/-- `ld r21, X+`, `ld r0, Z`, `eor`, `st Z+, r0` (c:94-97; f, x:102-105, ..., 141-144). -/
def addOne (s : Rg) : Option Rg := do
  let r21 ← ld s.m s.x
  let r0 ← ld s.m s.z
  let m ← st s.m s.z (r0 ^^^ r21)
  some ⟨m, s.x + 1, s.y, s.z + 1⟩

/-- `ld r0, X+`, `st Z+, r0` (c:121-122; f, x:170-171, ..., 193-194). -/
def overwriteOne (s : Rg) : Option Rg := do
  let r0 ← ld s.m s.x
  let m ← st s.m s.z r0
  some ⟨m, s.x + 1, s.y, s.z + 1⟩

/-- `st Z+, r1` (c:52, 141; f, x:52, ..., 216, ..., 230). -/
def zeroOne (s : Rg) : Option Rg := do
  let m ← st s.m s.z 0
  some ⟨m, s.x, s.y, s.z + 1⟩

/-- `ld r0, Z+`, `st X+, r0` (c:165-166; f, x:255-256, ..., 278-279). -/
def extractOne (s : Rg) : Option Rg := do
  let r0 ← ld s.m s.z
  let m ← st s.m s.x r0
  some ⟨m, s.x + 1, s.y, s.z + 1⟩

/-- `ld r19, X+`, `ld r0, Z+`, `eor`, `st Y+, r0` (c:195-198); `ld r21, Z+`, `ld r0, X+`, `eor`, `st Y+, r0` (f, x:310-313, ..., 349-352). -/
def extractAddOne (s : Rg) : Option Rg := do
  let r19 ← ld s.m s.x
  let r0 ← ld s.m s.z
  let m ← st s.m s.y (r0 ^^^ r19)
  some ⟨m, s.x + 1, s.y + 1, s.z + 1⟩

/-- `KeccakP1600_Initialize` (c:48-56); the pointers that are not set are arbitrary and taken as 0, here and below. -/
def initCompact (m : Mem) (state : BitVec 16) : Option Mem := do
  some (← loop1 zeroOne 256 200 ⟨m, 0, 0, state⟩).m

/-- `KeccakP1600_Initialize` (f:48-63) for `n = 25` and `Xoodoo_Initialize` (x:48-63) for `n = 6`. -/
def initFast (n : Byte) (m : Mem) (state : BitVec 16) : Option Mem := do
  some (← loop1 (eight zeroOne) 256 n ⟨m, 0, 0, state⟩).m

/-- `AddByte` (c:67-74; f, x:74-81); only the lower byte of the offset is used, here and below. -/
def addByte (m : Mem) (state : BitVec 16) (data : Byte) (offset : BitVec 16) : Option Mem := do
  let z := addPtr state (offset.setWidth 8)
  let r0 ← ld m z
  st m z (r0 ^^^ data)

/-- `AddBytes` (c:86-101; f, x:93-148) with the loops `run`; only the lower byte of the length is used, here and below. -/
def addBytes (run : (Rg → Option Rg) → Byte → Rg → Option Rg) (m : Mem) (state data offset length : BitVec 16) : Option Mem := do
  some (← run addOne (length.setWidth 8) ⟨m, data, 0, addPtr state (offset.setWidth 8)⟩).m

/-- `OverwriteBytes` (c:113-126; f, x:161-198). -/
def overwriteBytes (run : (Rg → Option Rg) → Byte → Rg → Option Rg) (m : Mem) (state data offset length : BitVec 16) : Option Mem := do
  some (← run overwriteOne (length.setWidth 8) ⟨m, data, 0, addPtr state (offset.setWidth 8)⟩).m

/-- `OverwriteWithZeroes` (c:136-145). -/
def zeroesCompact (m : Mem) (state byteCount : BitVec 16) : Option Mem := do
  some (← compact zeroOne (byteCount.setWidth 8) ⟨m, 0, 0, state⟩).m

/-- `OverwriteWithZeroes` (f, x:208-234): `lsr` three times, `breq`, the loop on eight bytes, `andi r22, 7`, `breq`, the loop on bytes. -/
def zeroesFast (m : Mem) (state byteCount : BitVec 16) : Option Mem := do
  let r22 : Byte := byteCount.setWidth 8
  let r23 := r22 >>> 1 >>> 1 >>> 1
  let s ← compact (eight zeroOne) r23 ⟨m, 0, 0, state⟩
  let s ← compact zeroOne (r22 &&& 7) s
  some s.m

/-- `ExtractBytes` (c:157-170; f, x:246-283). -/
def extractBytes (run : (Rg → Option Rg) → Byte → Rg → Option Rg) (m : Mem) (state data offset length : BitVec 16) : Option Mem := do
  some (← run extractOne (length.setWidth 8) ⟨m, data, 0, addPtr state (offset.setWidth 8)⟩).m

/-- `ExtractAndAddBytes` (c:183-205; f, x:296-360); the latter make the test `tst`, `breq` of the former too. -/
def extractAndAddBytes (run : (Rg → Option Rg) → Byte → Rg → Option Rg) (m : Mem) (state input output offset length : BitVec 16) : Option Mem :=
  if length.setWidth 8 = 0#8 then some m
  else do
    some (← run extractAddOne (length.setWidth 8) ⟨m, input, output, addPtr state (offset.setWidth 8)⟩).m

end Avr8
