import Verif.Model.Relaned
import Verif.Model.Simd

/-!
# Pieces of the x86-64 instruction set

What the models of the assembly files (`KeccakAvx2Asm`, `KeccakAvx512Asm`) have in common; below, "AVX2.s" is
`lib/low/KeccakP-1600/AVX2/KeccakP-1600-AVX2.s` and "AVX512.s" is `lib/low/KeccakP-1600/AVX512/KeccakP-1600-AVX512.s`.  The meaning of the instructions is taken from the Intel
manual and is part of the trusted base.  The operands are written in the order of the sources (AT&T syntax: sources first).

* A memory area (the state, a buffer given by the caller, a table) is a list of bytes or of words, and an address is a position in it; an
  access outside of it gives `none`.  The areas do not overlap.  Alignment is not modelled.
* The value of a 64-bit register that is a counter is a natural number below `2^64`.  The arguments of type `unsigned int` are assumed to be
  zero-extended to 64 bits: the functions use the whole registers, while the ABI leaves the upper halves unspecified.
* A label that is the target of a backward jump is a recursive function with a fuel parameter; running out of fuel gives `none`.
* Flags are not represented: a conditional jump is a test on the operands of the instruction that set the flags.
* Callee-saved registers and the stack (`push`, `pop`) are not represented.
-/

namespace X86

open KeccakP1600 (Lane wordOfBytes bytesOfWord)

/-- `mov (a), %r8b`. -/
def rd8 (m : Bytes) (a : Nat) : Option Byte := m[a]?

/-- `mov %r8b, (a)`. -/
def wr8 (m : Bytes) (a : Nat) (b : Byte) : Option Bytes := if a < m.length then some (m.set a b) else none

/-- `mov (a), %r8`. -/
def rd64 (m : Bytes) (a : Nat) : Option Lane := do
  let b ← SnP.readBuf (m.drop a) 8
  some (wordOfBytes b)

/-- `mov %r8, (a)`. -/
def wr64 (m : Bytes) (a : Nat) (w : Lane) : Option Bytes := Simd.storeWord m a w

/-- `sub`, `dec` on 64-bit registers; the carry flag is set when `a < b`. -/
def sub64 (a b : Nat) : Nat := (2 ^ 64 + a - b) % 2 ^ 64

/-- `add` on 64-bit registers. -/
def add64 (a b : Nat) : Nat := (a + b) % 2 ^ 64

/-- `and` on 32-bit registers, which clears the upper half. -/
def and32 (a b : Nat) : Nat := a % 2 ^ 32 &&& b

/-- `cmp %rcx, %r9` and `cmovae %rcx, %r9`: `%r9` becomes `%rcx` if it is at least that. -/
def cmovae (rcx r9 : Nat) : Nat := if r9 ≥ rcx then rcx else r9

/-- The instruction that combines a byte or a word with the memory: `xor` in `AddBytes`, `mov` in `OverwriteBytes`. -/
inductive Op
  | xor | mov
  deriving DecidableEq

/-- The new contents of a memory cell holding `old`. -/
def Op.on {n : Nat} (op : Op) (old new : BitVec n) : BitVec n :=
  match op with
  | .xor => old ^^^ new
  | .mov => new

/-- The loop over single bytes of the functions `AddBytes` and `OverwriteBytes`, `NotAlignedLoop` and `LastIncompleteLaneLoop`
(AVX2.s:101-107, 124-130, 166-172, 189-195; AVX512.s:85-91, 104-110, 140-146, 159-165): the four loops of a file differ only in the instruction
`op` and in the registers.  `rsi` is the position in the data, `a` the address in the state and `n` the counter.  The result is the state, `rsi` and `a`. -/
def bytesLoop (op : Op) (data : Bytes) : Nat → Bytes → Nat → Nat → Nat → Option (Bytes × Nat × Nat)
  | 0, _, _, _, _ => none
  | fuel + 1, st, rsi, a, n => do
    let r8b ← rd8 data rsi
    let rsi := rsi + 1
    let st ← wr8 st a (op.on (← rd8 st a) r8b)
    let a := a + 1
    let n := sub64 n 1
    if n ≠ 0 then bytesLoop op data fuel st rsi a n else some (st, rsi, a)

/-- `KeccakP1600_OverwriteWithZeroes_LastIncompleteLaneLoop` (AVX2.s:232-236, AVX512.s:197-201). -/
def zeroLoop : Nat → Bytes → Nat → Nat → Option Bytes
  | 0, _, _, _ => none
  | fuel + 1, st, a, n => do
    let st ← wr8 st a 0
    let a := a + 1
    let n := sub64 n 1
    if n ≠ 0 then zeroLoop fuel st a n else some st

/-- `KeccakP1600_ExtractBytes_NotAlignedLoop` (AVX2.s:274-280, AVX512.s:231-237): the address in the state and the bytes written. -/
def outLoop (st : Bytes) : Nat → Nat → Nat → Bytes → Option (Nat × Bytes)
  | 0, _, _, _ => none
  | fuel + 1, a, n, out => do
    let r8b ← rd8 st a
    let a := a + 1
    let out := out ++ [r8b]
    let n := sub64 n 1
    if n ≠ 0 then outLoop st fuel a n out else some (a, out)

/-- `KeccakP1600_ExtractBytes_LastIncompleteLaneLoop` (AVX2.s:298-303, AVX512.s:251-256): the bytes of the register `r8`, from the lowest on. -/
def outWordLoop : Nat → Lane → Nat → Bytes → Option Bytes
  | 0, _, _, _ => none
  | fuel + 1, r8, n, out =>
    let out := out ++ [r8.setWidth 8]
    let r8 := r8 >>> 8
    let n := sub64 n 1
    if n ≠ 0 then outWordLoop fuel r8 n out else some out

/-- `KeccakP1600_ExtractAndAddBytes_NotAlignedLoop` (AVX2.s:343-351, AVX512.s:287-295): the position in the input, the address in the state and the bytes written. -/
def xorOutLoop (st input : Bytes) : Nat → Nat → Nat → Nat → Bytes → Option (Nat × Nat × Bytes)
  | 0, _, _, _, _ => none
  | fuel + 1, rsi, a, n, out => do
    let b ← rd8 st a
    let a := a + 1
    let b := b ^^^ (← rd8 input rsi)
    let rsi := rsi + 1
    let out := out ++ [b]
    let n := sub64 n 1
    if n ≠ 0 then xorOutLoop st input fuel rsi a n out else some (rsi, a, out)

/-- `KeccakP1600_ExtractAndAddBytes_LastIncompleteLaneLoop` (AVX2.s:371-378, AVX512.s:311-318); `xor` on the low byte leaves the other bytes of the
register as they are. -/
def xorOutWordLoop (input : Bytes) : Nat → Lane → Nat → Nat → Bytes → Option Bytes
  | 0, _, _, _, _ => none
  | fuel + 1, r, rsi, n, out => do
    let r := r ^^^ (← rd8 input rsi).setWidth 64
    let rsi := rsi + 1
    let out := out ++ [r.setWidth 8]
    let r := r >>> 8
    let n := sub64 n 1
    if n ≠ 0 then xorOutWordLoop input fuel r rsi n out else some out

end X86
