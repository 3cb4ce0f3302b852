import Verif.Model.X86

/-!
# Keccak-p[1600] for AVX2, in assembly

Models `lib/low/KeccakP-1600/AVX2/KeccakP-1600-AVX2.s` ("s" below), instruction by instruction, in the way described in `Model/X86.lean`.

* The state is its 200 bytes in memory, and an address in it is an offset from the pointer to the state: `%rdi` is 0, and the functions that move
  it by 96 use displacements with `-96`, left out here.
* Each variable `y0 ... y15` is a register `%ymm0 ... %ymm15`.  An instruction is a `let` with the operands in the order of the source.
* `%r8`, `%r9` and `%r10` point into `rhotates_left`, `rhotates_right` and `iotas`, and are the offsets in these tables, in bytes.
* `vzeroupper` and the hints for the assembler are left out.
* The functions `KeccakF1600_FastLoop_Absorb` and `KeccakP1600_12rounds_FastLoop_Absorb` differ in the constants for the number of rounds and the
  permutation they call; they are modelled once.
-/

namespace Avx2Asm

open KeccakP1600 (Lane)
open X86

/-! ### Registers and instructions -/

/-- A 256-bit register: four quadwords, `q0` being the lowest. -/
structure Ymm where
  (q0 q1 q2 q3 : Lane)

/-- The quadword selected by two bits of an immediate operand. -/
def Ymm.sel (a : Ymm) (k : Nat) : Lane :=
  match k % 4 with
  | 0 => a.q0
  | 1 => a.q1
  | 2 => a.q2
  | _ => a.q3

/-- `vpxor`. -/
def vpxor (b a : Ymm) : Ymm := ⟨a.q0 ^^^ b.q0, a.q1 ^^^ b.q1, a.q2 ^^^ b.q2, a.q3 ^^^ b.q3⟩

/-- `vpor`. -/
def vpor (b a : Ymm) : Ymm := ⟨a.q0 ||| b.q0, a.q1 ||| b.q1, a.q2 ||| b.q2, a.q3 ||| b.q3⟩

/-- `vpandn`: the second operand is complemented. -/
def vpandn (b a : Ymm) : Ymm := ⟨~~~ a.q0 &&& b.q0, ~~~ a.q1 &&& b.q1, ~~~ a.q2 &&& b.q2, ~~~ a.q3 &&& b.q3⟩

/-- `vpaddq`. -/
def vpaddq (b a : Ymm) : Ymm := ⟨a.q0 + b.q0, a.q1 + b.q1, a.q2 + b.q2, a.q3 + b.q3⟩

/-- `vpsrlq` with an immediate operand. -/
def vpsrlq (n : Nat) (a : Ymm) : Ymm := ⟨a.q0 >>> n, a.q1 >>> n, a.q2 >>> n, a.q3 >>> n⟩

/-- `vpsllvq`: a count of 64 or more gives 0. -/
def vpsllvq (c a : Ymm) : Ymm := ⟨a.q0 <<< c.q0.toNat, a.q1 <<< c.q1.toNat, a.q2 <<< c.q2.toNat, a.q3 <<< c.q3.toNat⟩

/-- `vpsrlvq`. -/
def vpsrlvq (c a : Ymm) : Ymm := ⟨a.q0 >>> c.q0.toNat, a.q1 >>> c.q1.toNat, a.q2 >>> c.q2.toNat, a.q3 >>> c.q3.toNat⟩

/-- `vpermq` with an immediate operand. -/
def vpermq (imm : Nat) (a : Ymm) : Ymm := ⟨a.sel imm, a.sel (imm / 4), a.sel (imm / 16), a.sel (imm / 64)⟩

/-- Doubleword `k` of the 128 bits `hi lo`. -/
def dword (lo hi : Lane) (k : Nat) : BitVec 32 := ((hi ++ lo) >>> (32 * (k % 4))).setWidth 32

/-- `vpshufd`: doublewords within each half of the register. -/
def vpshufd (imm : Nat) (a : Ymm) : Ymm :=
  let f := fun (lo hi : Lane) (i : Nat) => (dword lo hi (imm / 4 ^ (2 * i + 1)) ++ dword lo hi (imm / 4 ^ (2 * i)) : BitVec (32 + 32))
  ⟨f a.q0 a.q1 0, f a.q0 a.q1 1, f a.q2 a.q3 0, f a.q2 a.q3 1⟩

/-- `vpblendd`: the doublewords of the first register for the bits set in the immediate operand, of the second one for the others. -/
def vpblendd (imm : Nat) (b a : Ymm) : Ymm :=
  let f := fun (b a : Lane) (i : Nat) =>
    (((if imm.testBit (2 * i + 1) then b else a) >>> 32).setWidth 32 ++ (if imm.testBit (2 * i) then b else a).setWidth 32 : BitVec (32 + 32))
  ⟨f b.q0 a.q0 0, f b.q1 a.q1 1, f b.q2 a.q2 2, f b.q3 a.q3 3⟩

/-- `vpsrldq`: a shift by bytes of each half of the register. -/
def vpsrldq (n : Nat) (a : Ymm) : Ymm :=
  let f := fun (lo hi : Lane) => (hi ++ lo) >>> (8 * n)
  ⟨(f a.q0 a.q1).setWidth 64, (f a.q0 a.q1 >>> 64).setWidth 64, (f a.q2 a.q3).setWidth 64, (f a.q2 a.q3 >>> 64).setWidth 64⟩

/-- `vpbroadcastq` from memory. -/
def vpbroadcastq (m : Bytes) (a : Nat) : Option Ymm := do
  let w ← rd64 m a
  some ⟨w, w, w, w⟩

/-- `vmovdqu` from memory. -/
def load (m : Bytes) (a : Nat) : Option Ymm := do some ⟨← rd64 m a, ← rd64 m (a + 8), ← rd64 m (a + 16), ← rd64 m (a + 24)⟩

/-- `vmovdqu` to memory. -/
def store (y : Ymm) (a : Nat) (m : Bytes) : Option Bytes := do
  let m ← wr64 m a y.q0
  let m ← wr64 m (a + 8) y.q1
  let m ← wr64 m (a + 16) y.q2
  wr64 m (a + 24) y.q3

/-- Four quadwords of a table, at an offset in bytes that is a multiple of 8. -/
def quads (t : List Nat) (a : Nat) : Option Ymm :=
  if a % 8 = 0 then do
    some ⟨BitVec.ofNat 64 (← t[a / 8]?), BitVec.ofNat 64 (← t[a / 8 + 1]?), BitVec.ofNat 64 (← t[a / 8 + 2]?), BitVec.ofNat 64 (← t[a / 8 + 3]?)⟩
  else none

/-- A quadword of a table, at an offset in bytes that is a multiple of 8. -/
def quad (t : List Nat) (a : Nat) : Option Nat := if a % 8 = 0 then t[a / 8]? else none

/-- One element of `vpgatherdq`: nothing is read if the sign bit of the mask is not set. -/
def gather1 (m : Bytes) (a : Nat) (mask dst : Lane) : Option Lane := if mask.msb then rd64 m a else some dst

/-- `vpgatherdq`, with the indices (none of them negative) from a table of doublewords. -/
def vpgatherdq (mask : Ymm) (m : Bytes) (base : Nat) (idx : List Nat) (dst : Ymm) : Option Ymm := do
  some ⟨← gather1 m (base + (← idx[0]?)) mask.q0 dst.q0, ← gather1 m (base + (← idx[1]?)) mask.q1 dst.q1,
    ← gather1 m (base + (← idx[2]?)) mask.q2 dst.q2, ← gather1 m (base + (← idx[3]?)) mask.q3 dst.q3⟩

/-- `vpcmpeqd` of a register with itself. -/
def ones : Ymm := ⟨BitVec.allOnes 64, BitVec.allOnes 64, BitVec.allOnes 64, BitVec.allOnes 64⟩

/-- `vpxor` of a register with itself. -/
def zero : Ymm := ⟨0, 0, 0, 0⟩

/-! ### Tables -/

/-- `rhotates_left` (s:1023-1029). -/
def rhotatesLeft : List Nat := [
  3, 18, 36, 41,
  1, 62, 28, 27,
  45, 6, 56, 39,
  10, 61, 55, 8,
  2, 15, 25, 20,
  44, 43, 21, 14]

/-- `rhotates_right` (s:1030-1036). -/
def rhotatesRight : List Nat := [
  64-3, 64-18, 64-36, 64-41,
  64-1, 64-62, 64-28, 64-27,
  64-45, 64-6, 64-56, 64-39,
  64-10, 64-61, 64-55, 64-8,
  64-2, 64-15, 64-25, 64-20,
  64-44, 64-43, 64-21, 64-14]

/-- `iotas` (s:1037-1061): every constant four times. -/
def iotas : List Nat := [
  0x0000000000000001, 0x0000000000008082, 0x800000000000808a, 0x8000000080008000,
  0x000000000000808b, 0x0000000080000001, 0x8000000080008081, 0x8000000000008009,
  0x000000000000008a, 0x0000000000000088, 0x0000000080008009, 0x000000008000000a,
  0x000000008000808b, 0x800000000000008b, 0x8000000000008089, 0x8000000000008003,
  0x8000000000008002, 0x8000000000000080, 0x000000000000800a, 0x800000008000000a,
  0x8000000080008081, 0x8000000000008080, 0x0000000080000001, 0x8000000080008008].flatMap (List.replicate 4)

/-- `mapState` (s:1063-1068). -/
def mapState : List Nat := [
  0*8, 1*8, 2*8, 3*8, 4*8,
  7*8, 21*8, 10*8, 15*8, 20*8,
  5*8, 13*8, 22*8, 19*8, 12*8,
  8*8, 9*8, 18*8, 23*8, 16*8,
  6*8, 17*8, 14*8, 11*8, 24*8]

/-- `map2` (s:1071-1072). -/
def map2 : List Nat := [10*8, 20*8, 5*8, 15*8]

/-- `map3` (s:1073-1074). -/
def map3 : List Nat := [16*8, 7*8, 23*8, 14*8]

/-- `map4` (s:1075-1076). -/
def map4 : List Nat := [11*8, 22*8, 8*8, 19*8]

/-- `map5` (s:1077-1078). -/
def map5 : List Nat := [21*8, 17*8, 13*8, 9*8]

/-- `map6` (s:1079-1080). -/
def map6 : List Nat := [6*8, 12*8, 18*8, 24*8]

/-- `ALLON` (s:1020). -/
def ALLON : Lane := 0xFFFFFFFFFFFFFFFF

/-- `mask3_21` (s:1083-1084). -/
def mask3_21 : Ymm := ⟨ALLON, ALLON, 0, ALLON⟩

/-- `mask4_21` (s:1085-1086). -/
def mask4_21 : Ymm := ⟨ALLON, 0, ALLON, ALLON⟩

/-- `mask5_21` (s:1087-1088). -/
def mask5_21 : Ymm := ⟨0, ALLON, ALLON, ALLON⟩

/-- `mask6_21` (s:1089-1090). -/
def mask6_21 : Ymm := ⟨ALLON, ALLON, ALLON, 0⟩

/-- `mask2_17` (s:1092-1093). -/
def mask2_17 : Ymm := ⟨ALLON, 0, ALLON, ALLON⟩

/-- `mask3_17` (s:1094-1095). -/
def mask3_17 : Ymm := ⟨ALLON, ALLON, 0, ALLON⟩

/-- `mask4_17` (s:1096-1097). -/
def mask4_17 : Ymm := ⟨ALLON, 0, ALLON, 0⟩

/-- `mask5_17` (s:1098-1099). -/
def mask5_17 : Ymm := ⟨0, 0, ALLON, ALLON⟩

/-- `mask6_17` (s:1100-1101). -/
def mask6_17 : Ymm := ⟨ALLON, ALLON, 0, 0⟩

/-! ### The permutation -/

/-- The registers `%ymm0 ... %ymm6`, which hold the state. -/
structure Regs where
  (y0 y1 y2 y3 y4 y5 y6 : Ymm)

/-- The part "Theta" of `.Loop_avx2` (s:397-428): the new state and `%ymm15`. -/
def theta (s : Regs) : Regs × Ymm :=
  let ⟨y0, y1, y2, y3, y4, y5, y6⟩ := s
  let y13 := vpshufd 0b01001110 y2
  let y12 := vpxor y3 y5
  let y9 := vpxor y6 y4
  let y12 := vpxor y1 y12
  let y12 := vpxor y9 y12
  let y11 := vpermq 0b10010011 y12
  let y13 := vpxor y2 y13
  let y7 := vpermq 0b01001110 y13
  let y8 := vpsrlq 63 y12
  let y9 := vpaddq y12 y12
  let y8 := vpor y9 y8
  let y15 := vpermq 0b00111001 y8
  let y14 := vpxor y11 y8
  let y14 := vpermq 0b00000000 y14
  let y13 := vpxor y0 y13
  let y13 := vpxor y7 y13
  let y7 := vpsrlq 63 y13
  let y8 := vpaddq y13 y13
  let y8 := vpor y7 y8
  let y2 := vpxor y14 y2
  let y0 := vpxor y14 y0
  let y15 := vpblendd 0b11000000 y8 y15
  let y11 := vpblendd 0b00000011 y13 y11
  let y15 := vpxor y11 y15
  (⟨y0, y1, y2, y3, y4, y5, y6⟩, y15)

/-- The registers that hold the state between "Rho + Pi + pre-Chi shuffle" and "Chi". -/
structure Mid where
  (y0 y8 y9 y10 y11 y12 y13 : Ymm)

/-- The part "Rho + Pi + pre-Chi shuffle" (s:430-462). -/
def rhoPi (r8 r9 : Nat) (s : Regs) (y15 : Ymm) : Option Mid := do
  let ⟨y0, y1, y2, y3, y4, y5, y6⟩ := s
  let y10 := vpsllvq (← quads rhotatesLeft (r8 + 0*32 - 96)) y2
  let y2 := vpsrlvq (← quads rhotatesRight (r9 + 0*32 - 96)) y2
  let y2 := vpor y10 y2
  let y3 := vpxor y15 y3
  let y11 := vpsllvq (← quads rhotatesLeft (r8 + 2*32 - 96)) y3
  let y3 := vpsrlvq (← quads rhotatesRight (r9 + 2*32 - 96)) y3
  let y3 := vpor y11 y3
  let y4 := vpxor y15 y4
  let y12 := vpsllvq (← quads rhotatesLeft (r8 + 3*32 - 96)) y4
  let y4 := vpsrlvq (← quads rhotatesRight (r9 + 3*32 - 96)) y4
  let y4 := vpor y12 y4
  let y5 := vpxor y15 y5
  let y13 := vpsllvq (← quads rhotatesLeft (r8 + 4*32 - 96)) y5
  let y5 := vpsrlvq (← quads rhotatesRight (r9 + 4*32 - 96)) y5
  let y5 := vpor y13 y5
  let y6 := vpxor y15 y6
  let y10 := vpermq 0b10001101 y2
  let y11 := vpermq 0b10001101 y3
  let y14 := vpsllvq (← quads rhotatesLeft (r8 + 5*32 - 96)) y6
  let y8 := vpsrlvq (← quads rhotatesRight (r9 + 5*32 - 96)) y6
  let y8 := vpor y14 y8
  let y1 := vpxor y15 y1
  let y12 := vpermq 0b00011011 y4
  let y13 := vpermq 0b01110010 y5
  let y15 := vpsllvq (← quads rhotatesLeft (r8 + 1*32 - 96)) y1
  let y9 := vpsrlvq (← quads rhotatesRight (r9 + 1*32 - 96)) y1
  let y9 := vpor y15 y9
  some ⟨y0, y8, y9, y10, y11, y12, y13⟩

/-- The part "Chi" (s:464-524). -/
def chi (s : Mid) : Regs :=
  let ⟨y0, y8, y9, y10, y11, y12, y13⟩ := s
  let y14 := vpsrldq 8 y8
  let y7 := vpandn y14 y8
  let y3 := vpblendd 0b00001100 y13 y9
  let y15 := vpblendd 0b00001100 y9 y11
  let y5 := vpblendd 0b00001100 y11 y10
  let y14 := vpblendd 0b00001100 y10 y9
  let y3 := vpblendd 0b00110000 y11 y3
  let y15 := vpblendd 0b00110000 y12 y15
  let y5 := vpblendd 0b00110000 y9 y5
  let y14 := vpblendd 0b00110000 y13 y14
  let y3 := vpblendd 0b11000000 y12 y3
  let y15 := vpblendd 0b11000000 y13 y15
  let y5 := vpblendd 0b11000000 y13 y5
  let y14 := vpblendd 0b11000000 y11 y14
  let y3 := vpandn y15 y3
  let y5 := vpandn y14 y5
  let y6 := vpblendd 0b00001100 y9 y12
  let y15 := vpblendd 0b00001100 y12 y10
  let y3 := vpxor y10 y3
  let y6 := vpblendd 0b00110000 y10 y6
  let y15 := vpblendd 0b00110000 y11 y15
  let y5 := vpxor y12 y5
  let y6 := vpblendd 0b11000000 y11 y6
  let y15 := vpblendd 0b11000000 y9 y15
  let y6 := vpandn y15 y6
  let y6 := vpxor y13 y6
  let y4 := vpermq 0b00011110 y8
  let y15 := vpblendd 0b00110000 y0 y4
  let y1 := vpermq 0b00111001 y8
  let y1 := vpblendd 0b11000000 y0 y1
  let y1 := vpandn y15 y1
  let y2 := vpblendd 0b00001100 y12 y11
  let y14 := vpblendd 0b00001100 y11 y13
  let y2 := vpblendd 0b00110000 y13 y2
  let y14 := vpblendd 0b00110000 y10 y14
  let y2 := vpblendd 0b11000000 y10 y2
  let y14 := vpblendd 0b11000000 y12 y14
  let y2 := vpandn y14 y2
  let y2 := vpxor y9 y2
  let y7 := vpermq 0b00000000 y7
  let y3 := vpermq 0b00011011 y3
  let y5 := vpermq 0b10001101 y5
  let y6 := vpermq 0b01110010 y6
  let y4 := vpblendd 0b00001100 y10 y13
  let y14 := vpblendd 0b00001100 y13 y12
  let y4 := vpblendd 0b00110000 y12 y4
  let y14 := vpblendd 0b00110000 y9 y14
  let y4 := vpblendd 0b11000000 y9 y4
  let y14 := vpblendd 0b11000000 y10 y14
  let y4 := vpandn y14 y4
  let y0 := vpxor y7 y0
  let y1 := vpxor y8 y1
  let y4 := vpxor y11 y4
  ⟨y0, y1, y2, y3, y4, y5, y6⟩

/-- The instructions of `.Loop_avx2` up to "Iota" (s:396-528). -/
def round (r8 r9 r10 : Nat) (s : Regs) : Option Regs := do
  let t := theta s
  let s := chi (← rhoPi r8 r9 t.1 t.2)
  some { s with y0 := vpxor (← quads iotas r10) s.y0 }

/-- `__KeccakF1600` (s:395-532); `%eax` is a 32-bit register. -/
def keccakF1600 (r8 r9 : Nat) : Nat → Nat → Nat → Regs → Option Regs
  | 0, _, _, _ => none
  | fuel + 1, r10, eax, s => do
    let s ← round r8 r9 r10 s
    let r10 := r10 + 32
    let eax := (2 ^ 32 + eax - 1) % 2 ^ 32
    if eax ≠ 0 then keccakF1600 r8 r9 fuel r10 eax s else some s

/-- The loads at the start of the functions (s:556-562, 596-602, 638-644, 685-691, 755-761, 864-870, 934-940). -/
def loadState (st : Bytes) : Option Regs := do
  some ⟨← vpbroadcastq st 0, ← load st (8+32*0), ← load st (8+32*1), ← load st (8+32*2), ← load st (8+32*3), ← load st (8+32*4),
    ← load st (8+32*5)⟩

/-- The stores at the end (s:564-570, 604-610, 646-652, 734-740, 913-919); `vmovq` stores the low quadword. -/
def saveState (s : Regs) (st : Bytes) : Option Bytes := do
  let st ← wr64 st 0 s.y0.q0
  let st ← store s.y1 (8+32*0) st
  let st ← store s.y2 (8+32*1) st
  let st ← store s.y3 (8+32*2) st
  let st ← store s.y4 (8+32*3) st
  let st ← store s.y5 (8+32*4) st
  store s.y6 (8+32*5) st

/-- The three functions of the permutation from `vzeroupper` on (s:555-572, 595-612, 637-654), with what is in `%r10` and in `%eax`. -/
def permute (st : Bytes) (r10 eax : Nat) : Option Bytes := do
  let s ← loadState st
  let s ← keccakF1600 96 96 (2 ^ 32) r10 eax s
  saveState s st

/-- `KeccakP1600_Permute_24rounds` (s:547-572). -/
def permute24 (st : Bytes) : Option Bytes := permute st 0 24

/-- `KeccakP1600_Permute_12rounds` (s:587-612). -/
def permute12 (st : Bytes) : Option Bytes := permute st (12*4*8) 12

/-- `KeccakP1600_Permute_Nrounds` (s:627-654).  An address below the table, which would be read if there were more than 24 rounds, is undefined. -/
def permuteNrounds (st : Bytes) (nrounds : Nat) : Option Bytes :=
  let rax := nrounds
  let rsi := nrounds * 2 ^ (2 + 3)
  if rsi ≤ 24*4*8 then permute st (24*4*8 - rsi) rax else none

/-! ### Access to the bytes of the state -/

/-- `KeccakP1600_Initialize` (s:30-41), on a state with any contents. -/
def init (st : Bytes) : Option Bytes := do
  let st ← store zero (0*32) st
  let st ← store zero (1*32) st
  let st ← store zero (2*32) st
  let st ← store zero (3*32) st
  let st ← store zero (4*32) st
  let st ← store zero (5*32) st
  wr64 st (6*32) 0

/-- `KeccakP1600_AddByte` (s:56-66). -/
def addByte (st : Bytes) (data : Byte) (offset : Nat) : Option Bytes := do
  let rax := offset
  let rax := rax &&& 7
  let rdx := and32 offset 0xFFFFFFF8
  let rdx ← quad mapState rdx
  let rdi := rdx
  let rdi := rdi + rax
  wr8 st rdi ((← rd8 st rdi) ^^^ data)

/-- `..._LaneAlignedLoop` and `..._LaneAlignedCheck` (s:109-118, 174-183): `op` is `xor` in `KeccakP1600_AddBytes` and `mov` in
`KeccakP1600_OverwriteBytes`. -/
def lanesLoop (op : Op) (data : Bytes) : Nat → Bytes → Nat → Nat → Nat → Option (Bytes × Nat × Nat × Nat)
  | 0, _, _, _, _ => none
  | fuel + 1, st, rsi, rdx, rcx =>
    if rcx ≥ 8 then do
      let rcx := sub64 rcx 8
      let r8 ← rd64 data rsi
      let rsi := rsi + 8
      let rax ← quad mapState rdx
      let rdx := rdx + 8
      let st ← wr64 st rax (op.on (← rd64 st rax) r8)
      lanesLoop op data fuel st rsi rdx rcx
    else some (st, rsi, rdx, sub64 rcx 8)

/-- The bytes up to a multiple of 8, from the test of the offset to `KeccakP1600_AddBytes_LaneAlignedCheck` (s:91-108), and likewise for
`KeccakP1600_OverwriteBytes` (s:156-173). -/
def writeHead (op : Op) (st data : Bytes) (rax rdx rcx : Nat) : Option (Bytes × Nat × Nat × Nat) :=
  if rax = 0 then some (st, 0, rdx, rcx)
  else do
    let r9 := sub64 8 rax
    let r9 := cmovae rcx r9
    let rcx := sub64 rcx r9
    let rax := rax + (← quad mapState rdx)
    let rdx := rdx + 8
    let (st, rsi, _) ← bytesLoop op data (r9 + 1) st 0 rax r9
    some (st, rsi, rdx, rcx)

/-- `KeccakP1600_AddBytes` (s:82-132) and `KeccakP1600_OverwriteBytes` (s:147-197), which differ only in the instruction `op`. -/
def writeBytes (op : Op) (st data : Bytes) (offset length : Nat) : Option Bytes :=
  let rcx := length
  if rcx = 0 then some st
  else do
    let rax := offset
    let rdx := and32 offset 0xFFFFFFF8
    let rax := rax &&& 7
    let (st, rsi, rdx, rcx) ← writeHead op st data rax rdx rcx
    let (st, rsi, rdx, rcx) ← lanesLoop op data (rcx + 1) st rsi rdx rcx
    let rcx := add64 rcx 8
    if rcx = 0 then some st
    else do
      let rax ← quad mapState rdx
      let (st, _, _) ← bytesLoop op data (rcx + 1) st rsi rax rcx
      some st

/-- `KeccakP1600_OverwriteWithZeroes_LaneAlignedLoop` and `..._LaneAlignedCheck` (s:219-226). -/
def zeroLanesLoop : Nat → Bytes → Nat → Nat → Option (Bytes × Nat × Nat)
  | 0, _, _, _ => none
  | fuel + 1, st, rdx, rsi =>
    if rsi ≥ 8 then do
      let rsi := sub64 rsi 8
      let rax ← quad mapState rdx
      let rdx := rdx + 8
      let st ← wr64 st rax 0
      zeroLanesLoop fuel st rdx rsi
    else some (st, rdx, sub64 rsi 8)

/-- `KeccakP1600_OverwriteWithZeroes` (s:212-238). -/
def overwriteWithZeroes (st : Bytes) (byteCount : Nat) : Option Bytes :=
  let rsi := byteCount
  if rsi = 0 then some st
  else do
    let (st, rdx, rsi) ← zeroLanesLoop (rsi + 1) st 0 rsi
    let rsi := add64 rsi 8
    if rsi = 0 then some st
    else do
      let rax ← quad mapState rdx
      zeroLoop (rsi + 1) st rax rsi

/-- `KeccakP1600_ExtractBytes_LaneAlignedLoop` and `..._LaneAlignedCheck` (s:282-291). -/
def outLanesLoop (st : Bytes) : Nat → Nat → Nat → Bytes → Option (Nat × Nat × Bytes)
  | 0, _, _, _ => none
  | fuel + 1, rdx, rcx, out =>
    if rcx ≥ 8 then do
      let rcx := sub64 rcx 8
      let rax ← quad mapState rdx
      let rdx := rdx + 8
      let r8 ← rd64 st rax
      let out := out ++ KeccakP1600.bytesOfWord r8
      outLanesLoop st fuel rdx rcx out
    else some (rdx, sub64 rcx 8, out)

/-- The bytes up to a multiple of 8 of `KeccakP1600_ExtractBytes` (s:263-281). -/
def extractHead (st : Bytes) (rax rdx rcx : Nat) : Option (Nat × Nat × Bytes) :=
  if rax = 0 then some (rdx, rcx, [])
  else do
    let rbx := sub64 8 rax
    let rbx := cmovae rcx rbx
    let rcx := sub64 rcx rbx
    let r9 ← quad mapState rdx
    let rdx := rdx + 8
    let r9 := r9 + rax
    let (_, out) ← outLoop st (rbx + 1) r9 rbx []
    some (rdx, rcx, out)

/-- `KeccakP1600_ExtractBytes` (s:253-306): the bytes written. -/
def extractBytes (st : Bytes) (offset length : Nat) : Option Bytes :=
  let rcx := length
  if rcx = 0 then some []
  else do
    let rax := offset
    let rdx := and32 offset 0xFFFFFFF8
    let rax := rax &&& 7
    let (rdx, rcx, out) ← extractHead st rax rdx rcx
    let (rdx, rcx, out) ← outLanesLoop st (rcx + 1) rdx rcx out
    let rcx := add64 rcx 8
    if rcx = 0 then some out
    else do
      let rax ← quad mapState rdx
      let r8 ← rd64 st rax
      outWordLoop (rcx + 1) r8 rcx out

/-- `KeccakP1600_ExtractAndAddBytes_LaneAlignedLoop` and `..._LaneAlignedCheck` (s:353-364). -/
def xorOutLanesLoop (st input : Bytes) : Nat → Nat → Nat → Nat → Bytes → Option (Nat × Nat × Nat × Bytes)
  | 0, _, _, _, _ => none
  | fuel + 1, rsi, rcx, r8, out =>
    if r8 ≥ 8 then do
      let r8 := sub64 r8 8
      let rax ← quad mapState rcx
      let rcx := rcx + 8
      let r10 ← rd64 st rax
      let r10 := r10 ^^^ (← rd64 input rsi)
      let rsi := rsi + 8
      let out := out ++ KeccakP1600.bytesOfWord r10
      xorOutLanesLoop st input fuel rsi rcx r8 out
    else some (rsi, rcx, sub64 r8 8, out)

/-- The bytes up to a multiple of 8 of `KeccakP1600_ExtractAndAddBytes` (s:332-352). -/
def extractAndAddHead (st input : Bytes) (rax rcx r8 : Nat) : Option (Nat × Nat × Nat × Bytes) :=
  if rax = 0 then some (0, rcx, r8, [])
  else do
    let rbx := sub64 8 rax
    let rbx := cmovae r8 rbx
    let r8 := sub64 r8 rbx
    let r9 ← quad mapState rcx
    let rcx := rcx + 8
    let r9 := r9 + rax
    let (rsi, _, out) ← xorOutLoop st input (rbx + 1) 0 r9 rbx []
    some (rsi, rcx, r8, out)

/-- `KeccakP1600_ExtractAndAddBytes` (s:321-382): the bytes written; the output does not overlap the input. -/
def extractAndAddBytes (st input : Bytes) (offset length : Nat) : Option Bytes :=
  let r8 := length
  if r8 = 0 then some []
  else do
    let rax := offset
    let rcx := and32 offset 0xFFFFFFF8
    let rax := rax &&& 7
    let (rsi, rcx, r8, out) ← extractAndAddHead st input rax rcx r8
    let (rsi, rcx, r8, out) ← xorOutLanesLoop st input (r8 + 1) rsi rcx r8 out
    let r8 := add64 r8 8
    if r8 = 0 then some out
    else do
      let rax ← quad mapState rcx
      let r10 ← rd64 st rax
      xorOutWordLoop input (r8 + 1) r10 rsi r8 out

/-- The functions (s:21-383) as an implementation of the interface. -/
def access : Access Bytes where
  init := (Avx2Asm.init (List.replicate 200 0xFF)).getD []
  addByte := addByte
  addBytes := writeBytes .xor
  overwriteBytes := writeBytes .mov
  overwriteWithZeroes := overwriteWithZeroes
  extractBytes := extractBytes
  extractAndAddBytes := extractAndAddBytes

/-! ### Fast absorption -/

/-- `..._Loop21Lanes` up to `add $21*8, %rdx` (s:693-726, 872-905): the block at offset `rdx` of the data is added to the state. -/
def addBlock21 (data : Bytes) (rdx : Nat) (s : Regs) : Option Regs := do
  let y7 ← vpbroadcastq data rdx
  let y8 ← load data (rdx + 8)
  let y9 ← vpgatherdq ones data rdx map2 zero
  let y10 ← vpgatherdq mask3_21 data rdx map3 zero
  let y11 ← vpgatherdq mask4_21 data rdx map4 zero
  let y12 ← vpgatherdq mask5_21 data rdx map5 zero
  let y13 ← vpgatherdq mask6_21 data rdx map6 zero
  some ⟨vpxor y7 s.y0, vpxor y8 s.y1, vpxor y9 s.y2, vpxor y10 s.y3, vpxor y11 s.y4, vpxor y12 s.y5, vpxor y13 s.y6⟩

/-- `..._Loop17Lanes` up to `add $17*8, %rdx` (s:763-797, 942-976). -/
def addBlock17 (data : Bytes) (rdx : Nat) (s : Regs) : Option Regs := do
  let y7 ← vpbroadcastq data rdx
  let y8 ← load data (rdx + 8)
  let y9 ← vpgatherdq mask2_17 data rdx map2 zero
  let y10 ← vpgatherdq mask3_17 data rdx map3 zero
  let y11 ← vpgatherdq mask4_17 data rdx map4 zero
  let y12 ← vpgatherdq mask5_17 data rdx map5 zero
  let y13 ← vpgatherdq mask6_17 data rdx map6 zero
  some ⟨vpxor y7 s.y0, vpxor y8 s.y1, vpxor y9 s.y2, vpxor y10 s.y3, vpxor y11 s.y4, vpxor y12 s.y5, vpxor y13 s.y6⟩

/-- `..._Loop21Lanes` and `..._Loop17Lanes` (s:692-732, 762-803, 871-911, 941-982), `n` being 21 or 17 and `rcx` the number of lanes left, from which
`n` has been subtracted: `jnc` after the subtraction, and `%rcx` is not used after the loop. -/
def regLoop (n : Nat) (addBlock : Bytes → Nat → Regs → Option Regs) (r10 eax : Nat) (data : Bytes) :
    Nat → Nat → Nat → Regs → Option (Regs × Nat)
  | 0, _, _, _ => none
  | fuel + 1, rdx, rcx, s => do
    let s ← addBlock data rdx s
    let rdx := rdx + n*8
    let s ← keccakF1600 96 96 (2 ^ 32) r10 eax s
    if rcx ≥ n then regLoop n addBlock r10 eax data fuel rdx (rcx - n) s else some (s, rdx)

/-- `..._LanesAddLoop` (s:808-816, 987-995). -/
def lanesAddLoop (data : Bytes) : Nat → Bytes → Nat → Nat → Nat → Option (Bytes × Nat)
  | 0, _, _, _, _ => none
  | fuel + 1, st, rdx, r9, rax => do
    let r8 ← rd64 data rdx
    let rdx := rdx + 8
    let r10 ← quad mapState r9
    let r9 := r9 + 8
    let st ← wr64 st r10 ((← rd64 st r10) ^^^ r8)
    let rax := sub64 rax 1
    if rax ≠ 0 then lanesAddLoop data fuel st rdx r9 rax else some (st, rdx)

/-- `..._Not17Lanes` (s:805-833, 984-1012). -/
def memLoop (permute : Bytes → Option Bytes) (rsi : Nat) (data : Bytes) : Nat → Bytes → Nat → Nat → Option (Bytes × Nat)
  | 0, _, _, _ => none
  | fuel + 1, st, rdx, rcx => do
    let rax := rsi
    let (st, rdx) ← lanesAddLoop data 26 st rdx 0 rax
    let rcx := rcx - rsi
    let st ← permute st
    if rcx ≥ rsi then memLoop permute rsi data fuel st rdx rcx else some (st, rdx)

/-- `KeccakF1600_FastLoop_Absorb` (s:669-833) and `KeccakP1600_12rounds_FastLoop_Absorb` (s:848-1012), with the constants for `%r10` and `%eax` and the
permutation they call.  The third register argument is the data, whose size is `dataByteLen`; the result is the state and the number of bytes
processed. -/
def fastLoop (r10 eax : Nat) (permute : Bytes → Option Bytes) (st : Bytes) (laneCount : Nat) (data : Bytes) : Option (Bytes × Nat) :=
  let rsi := laneCount
  let rcx := data.length / 2 ^ 3
  if rcx < rsi then some (st, 0)
  else if rsi = 21 then do
    let rcx := rcx - 21
    let s ← loadState st
    let (s, rdx) ← regLoop 21 addBlock21 r10 eax data (rcx + 1) 0 rcx s
    some (← saveState s st, rdx)
  else if rsi = 17 then do
    let rcx := rcx - 17
    let s ← loadState st
    let (s, rdx) ← regLoop 17 addBlock17 r10 eax data (rcx + 1) 0 rcx s
    some (← saveState s st, rdx)
  else memLoop permute rsi data (rcx + 1) st 0 rcx

/-- `KeccakF1600_FastLoop_Absorb` (s:669-833). -/
def fastLoop24 (st : Bytes) (laneCount : Nat) (data : Bytes) : Option (Bytes × Nat) := fastLoop 0 24 permute24 st laneCount data

/-- `KeccakP1600_12rounds_FastLoop_Absorb` (s:848-1012). -/
def fastLoop12 (st : Bytes) (laneCount : Nat) (data : Bytes) : Option (Bytes × Nat) := fastLoop (12*4*8) 12 permute12 st laneCount data

end Avx2Asm
