import Verif.Model.X86
import Verif.Model.KeccakPlane512

/-!
# Keccak-p[1600] for AVX-512, in assembly

Models `lib/low/KeccakP-1600/AVX512/KeccakP-1600-AVX512.s` ("s" below), instruction by instruction, in the way described in `Model/X86.lean`, and the macro
of `KeccakP-1600-SnP.h` next to it ("h").

* The state is its 200 bytes in memory, and an address in it is an offset from the pointer to the state: `%rdi` is 0 at the start, and the functions that
  move it by 96 use displacements with `-96`, left out here.
* Each variable `z0 ... z31` is a register `%zmm0 ... %zmm31`, that is eight quadwords.  An instruction is a `let` with the operands in the order of the
  source, but for the mask, which comes first.  The meaning of those that are also used through intrinsics is in `Model/KeccakPlane512.lean`.
* `%r10` points into `iotas` and is the offset in this table, in bytes.
* `vzeroupper` and the hints for the assembler are left out.
* The functions `KeccakF1600_FastLoop_Absorb` and `KeccakP1600_12rounds_FastLoop_Absorb` differ in the constants for the number of rounds and the
  permutation they call; they are modelled once.
-/

namespace Avx512Asm

open KeccakP1600 (Lane)
open Simd (Vec)
open X86

/-! ### Registers and instructions -/

/-- A 512-bit register. -/
abbrev Zmm := Vec 8

/-- `vpternlogq`. -/
def vpternlogq (imm : Nat) (c b a : Zmm) : Zmm := Avx512.ternarylogic a b c imm

/-- `vprolq`. -/
def vprolq (n : Nat) (a : Zmm) : Zmm := Simd.roti a n

/-- `vprolvq`. -/
def vprolvq (count a : Zmm) : Zmm := Plane512.rolv a count

/-- `vpermq` with the indices in a register. -/
def vpermq (a idx : Zmm) : Zmm := Plane512.permutexvar idx a

/-- `vpblendmq`: the quadwords of the first register where the mask is set, of the second one elsewhere. -/
def vpblendmq (k : Nat) (b a : Zmm) : Zmm := Plane512.maskBlend k a b

/-- `vpxorq` of two registers. -/
def vpxorq (b a : Zmm) : Zmm := Simd.xor a b

/-- `vpxorq` with a memory operand and the mask `%k1`, which selects quadword 0: only this one is read, and the others of the register are left. -/
def vpxorqK1 (m : Lane) (a : Zmm) : Zmm := fun l => if l.val = 0 then a l ^^^ m else a l

/-- `vmovdqu64` from memory, with a mask and without `{z}`: the other quadwords of the register are left. -/
def loadMerge (k : Nat) (m : Bytes) (a : Nat) (z : Zmm) : Option Zmm := do some (Plane512.maskBlend k z (← Plane512.maskzLoad k m a))

/-- A quadword of a table, at an offset in bytes that is a multiple of 8. -/
def quad (t : List Lane) (a : Nat) : Option Lane := if a % 8 = 0 then t[a / 8]? else none

/-! ### Tables -/

/-- `theta_perm` (s:981-986). -/
def theta_perm : List (List Nat) := [
  [0, 1, 2, 3, 4, 5, 6, 7],
  [4, 0, 1, 2, 3, 5, 6, 7],
  [3, 4, 0, 1, 2, 5, 6, 7],
  [2, 3, 4, 0, 1, 5, 6, 7],
  [1, 2, 3, 4, 0, 5, 6, 7]]

/-- `rhotates1` (s:987-992). -/
def rhotates1 : List (List Nat) := [
  [0,  44, 43, 21, 14, 0, 0, 0],
  [18, 1,  6,  25, 8,  0, 0, 0],
  [41, 2,  62, 55, 39, 0, 0, 0],
  [3,  45, 61, 28, 20, 0, 0, 0],
  [36, 10, 15, 56, 27, 0, 0, 0]]

/-- `rhotates0` (s:993-998). -/
def rhotates0 : List (List Nat) := [
  [ 0,  1, 62, 28, 27, 0, 0, 0],
  [36, 44,  6, 55, 20, 0, 0, 0],
  [ 3, 10, 43, 25, 39, 0, 0, 0],
  [41, 45, 15, 21,  8, 0, 0, 0],
  [18,  2, 61, 56, 14, 0, 0, 0]]

/-- `pi0_perm` (s:999-1004). -/
def pi0_perm : List (List Nat) := [
  [0, 3, 1, 4, 2, 5, 6, 7],
  [1, 4, 2, 0, 3, 5, 6, 7],
  [2, 0, 3, 1, 4, 5, 6, 7],
  [3, 1, 4, 2, 0, 5, 6, 7],
  [4, 2, 0, 3, 1, 5, 6, 7]]

/-- `iotas` (s:1005-1030). -/
def iotas : List Lane := [
  0x0000000000000001, 0x0000000000008082, 0x800000000000808a, 0x8000000080008000, 0x000000000000808b, 0x0000000080000001,
  0x8000000080008081, 0x8000000000008009, 0x000000000000008a, 0x0000000000000088, 0x0000000080008009, 0x000000008000000a,
  0x000000008000808b, 0x800000000000008b, 0x8000000000008089, 0x8000000000008003, 0x8000000000008002, 0x8000000000000080,
  0x000000000000800a, 0x800000008000000a, 0x8000000080008081, 0x8000000000008080, 0x0000000080000001, 0x8000000080008008]

/-- `vmovdqa64 64*k(%r8)`, `%r8` pointing to `theta_perm`, which the other tables follow. -/
def constants (k : Nat) : Zmm := Plane512.setr ((theta_perm ++ rhotates1 ++ rhotates0 ++ pi0_perm).getD k [])

/-! The registers with constants; the loads (s:469-487, 531-549, 592-610, 731-749, 870-888) are the same in the five functions. -/

/-- `%zmm13` (s:469). -/
def z13 : Zmm := constants 1

/-- `%zmm14` (s:470). -/
def z14 : Zmm := constants 2

/-- `%zmm15` (s:471). -/
def z15 : Zmm := constants 3

/-- `%zmm16` (s:472). -/
def z16 : Zmm := constants 4

/-- `%zmm27` (s:473). -/
def z27 : Zmm := constants 5

/-- `%zmm28` (s:474). -/
def z28 : Zmm := constants 6

/-- `%zmm29` (s:475). -/
def z29 : Zmm := constants 7

/-- `%zmm30` (s:476). -/
def z30 : Zmm := constants 8

/-- `%zmm31` (s:477). -/
def z31 : Zmm := constants 9

/-- `%zmm22` (s:478). -/
def z22 : Zmm := constants 10

/-- `%zmm23` (s:479). -/
def z23 : Zmm := constants 11

/-- `%zmm24` (s:480). -/
def z24 : Zmm := constants 12

/-- `%zmm25` (s:481). -/
def z25 : Zmm := constants 13

/-- `%zmm26` (s:482). -/
def z26 : Zmm := constants 14

/-- `%zmm17` (s:483). -/
def z17 : Zmm := constants 15

/-- `%zmm18` (s:484). -/
def z18 : Zmm := constants 16

/-- `%zmm19` (s:485). -/
def z19 : Zmm := constants 17

/-- `%zmm20` (s:486). -/
def z20 : Zmm := constants 18

/-- `%zmm21` (s:487). -/
def z21 : Zmm := constants 19

/-! The masks (s:461-467, 523-529, 585-591, 724-730, 863-869): `kxnorw` sets the 16 bits of `%k6`. -/

/-- `%k1` (s:462). -/
def k1 : Nat := 0xFFFF >>> 15

/-- `%k6` (s:463). -/
def k6 : Nat := 0xFFFF >>> 11

/-- `%k2` (s:464). -/
def k2 : Nat := k1 <<< 1

/-- `%k3` (s:465). -/
def k3 : Nat := k1 <<< 2

/-- `%k4` (s:466). -/
def k4 : Nat := k1 <<< 3

/-- `%k5` (s:467). -/
def k5 : Nat := k1 <<< 4

/-! ### The permutation -/

/-- The registers `%zmm0 ... %zmm4`, which hold the state. -/
structure Regs where
  (z0 z1 z2 z3 z4 : Zmm)

/-- The part "Theta, even round" of `.Loop_avx512` (s:337-348), and "Theta" of `KeccakP1600_Permute_Nrounds` (s:623-634), the same instructions.  The
result is in `%zmm5` and `%zmm1 ... %zmm4`. -/
def theta (s : Regs) : Regs :=
  let z0 := s.z0
  let z1 := s.z1
  let z2 := s.z2
  let z3 := s.z3
  let z4 := s.z4
  let z5 := z0
  let z0 := vpternlogq 0x96 z2 z1 z0
  let z0 := vpternlogq 0x96 z4 z3 z0
  let z6 := vprolq 1 z0
  let z0 := vpermq z0 z13
  let z6 := vpermq z6 z16
  let z5 := vpternlogq 0x96 z0 z6 z5
  let z1 := vpternlogq 0x96 z0 z6 z1
  let z2 := vpternlogq 0x96 z0 z6 z2
  let z3 := vpternlogq 0x96 z0 z6 z3
  let z4 := vpternlogq 0x96 z0 z6 z4
  ⟨z5, z1, z2, z3, z4⟩

/-- The part "Rho" of the even round (s:349-354, 635-640), with `%zmm5` as the first register. -/
def rho (s : Regs) : Regs :=
  let z5 := s.z0
  let z1 := s.z1
  let z2 := s.z2
  let z3 := s.z3
  let z4 := s.z4
  let z0 := vprolvq z22 z5
  let z1 := vprolvq z23 z1
  let z2 := vprolvq z24 z2
  let z3 := vprolvq z25 z3
  let z4 := vprolvq z26 z4
  ⟨z0, z1, z2, z3, z4⟩

/-- The parts "Pi" and "Chi" of the even round (s:355-368, 641-654). -/
def piChi (s : Regs) : Regs :=
  let z0 := s.z0
  let z1 := s.z1
  let z2 := s.z2
  let z3 := s.z3
  let z4 := s.z4
  let z0 := vpermq z0 z17
  let z1 := vpermq z1 z18
  let z2 := vpermq z2 z19
  let z3 := vpermq z3 z20
  let z4 := vpermq z4 z21
  let z5 := z0
  let z6 := z1
  let z0 := vpternlogq 0xD2 z2 z1 z0
  let z1 := vpternlogq 0xD2 z3 z2 z1
  let z2 := vpternlogq 0xD2 z4 z3 z2
  let z3 := vpternlogq 0xD2 z5 z4 z3
  let z4 := vpternlogq 0xD2 z6 z5 z4
  ⟨z0, z1, z2, z3, z4⟩

/-- The even round up to "Iota" (s:337-370, 623-656), `rc` being the quadword at `(%r10)`. -/
def evenRound (rc : Lane) (s : Regs) : Regs :=
  let s := piChi (rho (theta s))
  { s with z0 := vpxorqK1 rc s.z0 }

/-- The part "Harmonize rounds" (s:372-397), with `%zmm5` as the first register of the result. -/
def harmonize (s : Regs) : Regs :=
  let z0 := s.z0
  let z1 := s.z1
  let z2 := s.z2
  let z3 := s.z3
  let z4 := s.z4
  let z6 := vpblendmq k2 z2 z1
  let z7 := vpblendmq k2 z3 z2
  let z8 := vpblendmq k2 z4 z3
  let z5 := vpblendmq k2 z1 z0
  let z9 := vpblendmq k2 z0 z4
  let z6 := vpblendmq k3 z3 z6
  let z7 := vpblendmq k3 z4 z7
  let z5 := vpblendmq k3 z2 z5
  let z8 := vpblendmq k3 z0 z8
  let z9 := vpblendmq k3 z1 z9
  let z6 := vpblendmq k4 z4 z6
  let z5 := vpblendmq k4 z3 z5
  let z7 := vpblendmq k4 z0 z7
  let z8 := vpblendmq k4 z1 z8
  let z9 := vpblendmq k4 z2 z9
  let z5 := vpblendmq k5 z4 z5
  let z6 := vpblendmq k5 z0 z6
  let z7 := vpblendmq k5 z1 z7
  let z8 := vpblendmq k5 z2 z8
  let z9 := vpblendmq k5 z3 z9
  let z1 := vpermq z6 z13
  let z2 := vpermq z7 z14
  let z3 := vpermq z8 z15
  let z4 := vpermq z9 z16
  ⟨z5, z1, z2, z3, z4⟩

/-- The part "Harmonize single round" of `KeccakP1600_Permute_Nrounds` (s:658-686). -/
def harmonizeSingle (s : Regs) : Regs :=
  let z0 := s.z0
  let z1 := s.z1
  let z2 := s.z2
  let z3 := s.z3
  let z4 := s.z4
  let z1 := vpermq z1 z13
  let z2 := vpermq z2 z14
  let z3 := vpermq z3 z15
  let z4 := vpermq z4 z16
  let z5 := vpblendmq k2 z1 z0
  let z6 := vpblendmq k2 z2 z1
  let z7 := vpblendmq k2 z3 z2
  let z8 := vpblendmq k2 z4 z3
  let z9 := vpblendmq k2 z0 z4
  let z5 := vpblendmq k3 z2 z5
  let z6 := vpblendmq k3 z3 z6
  let z7 := vpblendmq k3 z4 z7
  let z8 := vpblendmq k3 z0 z8
  let z9 := vpblendmq k3 z1 z9
  let z5 := vpblendmq k4 z3 z5
  let z6 := vpblendmq k4 z4 z6
  let z7 := vpblendmq k4 z0 z7
  let z8 := vpblendmq k4 z1 z8
  let z9 := vpblendmq k4 z2 z9
  let z6 := vpblendmq k5 z0 z6
  let z0 := vpblendmq k5 z4 z5
  let z7 := vpblendmq k5 z1 z7
  let z8 := vpblendmq k5 z2 z8
  let z9 := vpblendmq k5 z3 z9
  let z4 := vpermq z6 z13
  let z3 := vpermq z7 z14
  let z2 := vpermq z8 z15
  let z1 := vpermq z9 z16
  ⟨z0, z1, z2, z3, z4⟩

/-- The part "Theta, odd round" (s:398-409), with `%zmm5` as the first register. -/
def thetaOdd (s : Regs) : Regs :=
  let z5 := s.z0
  let z1 := s.z1
  let z2 := s.z2
  let z3 := s.z3
  let z4 := s.z4
  let z0 := z5
  let z5 := vpternlogq 0x96 z2 z1 z5
  let z5 := vpternlogq 0x96 z4 z3 z5
  let z6 := vprolq 1 z5
  let z5 := vpermq z5 z13
  let z6 := vpermq z6 z16
  let z0 := vpternlogq 0x96 z5 z6 z0
  let z3 := vpternlogq 0x96 z5 z6 z3
  let z1 := vpternlogq 0x96 z5 z6 z1
  let z4 := vpternlogq 0x96 z5 z6 z4
  let z2 := vpternlogq 0x96 z5 z6 z2
  ⟨z0, z1, z2, z3, z4⟩

/-- The registers that hold the state between "Rho" and "Pi" of the odd round. -/
structure Mid where
  (z0 z6 z7 z8 z9 : Zmm)

/-- The part "Rho" of the odd round (s:410-415). -/
def rhoOdd (s : Regs) : Mid :=
  let z0 := s.z0
  let z1 := s.z1
  let z2 := s.z2
  let z3 := s.z3
  let z4 := s.z4
  let z0 := vprolvq z27 z0
  let z6 := vprolvq z30 z3
  let z7 := vprolvq z28 z1
  let z8 := vprolvq z31 z4
  let z9 := vprolvq z29 z2
  ⟨z0, z6, z7, z8, z9⟩

/-- The parts "Iota", "Pi" and "Chi" of the odd round and the two permutations before them (s:416-438), `rc` being the quadword at `-8(%r10)`. -/
def piChiOdd (rc : Lane) (s : Mid) : Regs :=
  let z0 := s.z0
  let z6 := s.z6
  let z7 := s.z7
  let z8 := s.z8
  let z9 := s.z9
  let z10 := vpermq z0 z16
  let z11 := vpermq z0 z15
  let z0 := vpxorqK1 rc z0
  let z1 := vpermq z6 z14
  let z2 := vpermq z7 z16
  let z3 := vpermq z8 z13
  let z4 := vpermq z9 z15
  let z0 := vpternlogq 0xD2 z11 z10 z0
  let z12 := vpermq z6 z13
  let z1 := vpternlogq 0xD2 z6 z12 z1
  let z5 := vpermq z7 z15
  let z7 := vpermq z7 z14
  let z2 := vpternlogq 0xD2 z7 z5 z2
  let z6 := vpermq z8 z16
  let z3 := vpternlogq 0xD2 z6 z8 z3
  let z5 := vpermq z9 z14
  let z9 := vpermq z9 z13
  let z4 := vpternlogq 0xD2 z9 z5 z4
  ⟨z0, z1, z2, z3, z4⟩

/-- Two rounds: `.Loop_avx512` up to the test (s:336-438); `%r10` is increased by 16 in between. -/
def doubleRound (r10 : Nat) (s : Regs) : Option Regs := do
  let s := evenRound (← quad iotas r10) s
  let r10 := r10 + 16
  some (piChiOdd (← quad iotas (r10 - 8)) (rhoOdd (thetaOdd (harmonize s))))

/-- `__KeccakF1600` (s:335-441); `%eax` is a 32-bit register. -/
def keccakF1600 : Nat → Nat → Nat → Regs → Option Regs
  | 0, _, _, _ => none
  | fuel + 1, r10, eax, s => do
    let s ← doubleRound r10 s
    let r10 := r10 + 16
    let eax := (2 ^ 32 + eax - 1) % 2 ^ 32
    if eax ≠ 0 then keccakF1600 fuel r10 eax s else some s

/-- The loads at the start of the functions (s:488-493, 550-555, 611-615, 750-754, 889-893). -/
def loadState (st : Bytes) : Option Regs := do
  some ⟨← Plane512.maskzLoad k6 st (40*0), ← Plane512.maskzLoad k6 st (40*1), ← Plane512.maskzLoad k6 st (40*2),
    ← Plane512.maskzLoad k6 st (40*3), ← Plane512.maskzLoad k6 st (40*4)⟩

/-- The stores at the end (s:497-501, 559-563, 692-696, 776-780, 915-919). -/
def saveState (s : Regs) (st : Bytes) : Option Bytes := do
  let st ← Plane512.maskStore st (40*0) k6 s.z0
  let st ← Plane512.maskStore st (40*1) k6 s.z1
  let st ← Plane512.maskStore st (40*2) k6 s.z2
  let st ← Plane512.maskStore st (40*3) k6 s.z3
  Plane512.maskStore st (40*4) k6 s.z4

/-- The functions with a constant number of rounds (s:459-503, 521-565), with what is in `%r10` and in `%eax`. -/
def permute (st : Bytes) (r10 eax : Nat) : Option Bytes := do
  let s ← loadState st
  let s ← keccakF1600 (2 ^ 32) r10 eax s
  saveState s st

/-- `KeccakP1600_Permute_24rounds` (s:456-503). -/
def permute24 (st : Bytes) : Option Bytes := permute st 0 (24/2)

/-- `KeccakP1600_Permute_12rounds` (s:518-565). -/
def permute12 (st : Bytes) : Option Bytes := permute st (12*8) (12/2)

/-- The single round of `KeccakP1600_Permute_Nrounds` (s:620-686): the registers and `%r10`. -/
def singleRound (r10 eax : Nat) (s : Regs) : Option (Regs × Nat) :=
  if eax &&& 1 = 0 then some (s, r10)
  else do
    let s := evenRound (← quad iotas r10) s
    let r10 := r10 + 8
    some (harmonizeSingle s, r10)

/-- `.KeccakP1600_Permute_Nrounds_DoubleRound` (s:687-690). -/
def doubleRounds (r10 eax : Nat) (s : Regs) : Option Regs :=
  let eax := eax >>> 1
  if eax = 0 then some s else keccakF1600 (2 ^ 32) r10 eax s

/-- `KeccakP1600_Permute_Nrounds` (s:580-698).  An address below the table, which would be read if there were more than 24 rounds, is undefined. -/
def permuteNrounds (st : Bytes) (nrounds : Nat) : Option Bytes := do
  let s ← loadState st
  let eax := nrounds
  let rsi := nrounds * 2 ^ 3
  if rsi ≤ 24*8 then do
    let r10 := 24*8 - rsi
    let (s, r10) ← singleRound r10 eax s
    let s ← doubleRounds r10 eax s
    saveState s st
  else none

/-! ### Access to the bytes of the state -/

/-- `KeccakP1600_Initialize` (s:30-38), on a state with any contents. -/
def init (st : Bytes) : Option Bytes := do
  let z0 : Zmm := fun _ => 0
  let st ← Plane512.maskStore st (0*64) 0xFF z0
  let st ← Plane512.maskStore st (1*64) 0xFF z0
  let st ← Plane512.maskStore st (2*64) 0xFF z0
  wr64 st (3*64) 0

/-- `KeccakP1600_AddByte` (h:45), a macro. -/
def addByte (st : Bytes) (byte : Byte) (offset : Nat) : Option Bytes := do
  wr8 st offset ((← rd8 st offset) ^^^ byte)

/-- `..._LaneAlignedLoop` and `..._LaneAlignedCheck` (s:93-100, 148-155): `op` is `xor` in `KeccakP1600_AddBytes` and `mov` in
`KeccakP1600_OverwriteBytes`. -/
def lanesLoop (op : Op) (data : Bytes) : Nat → Bytes → Nat → Nat → Nat → Option (Bytes × Nat × Nat × Nat)
  | 0, _, _, _, _ => none
  | fuel + 1, st, rsi, rdi, rcx =>
    if rcx ≥ 8 then do
      let rcx := sub64 rcx 8
      let r8 ← rd64 data rsi
      let rsi := rsi + 8
      let st ← wr64 st rdi (op.on (← rd64 st rdi) r8)
      let rdi := rdi + 8
      lanesLoop op data fuel st rsi rdi rcx
    else some (st, rsi, rdi, sub64 rcx 8)

/-- The bytes up to a multiple of 8, from the test of the offset to `KeccakP1600_AddBytes_LaneAlignedCheck` (s:78-92), and likewise for
`KeccakP1600_OverwriteBytes` (s:133-147). -/
def writeHead (op : Op) (st data : Bytes) (rdi rdx rcx : Nat) : Option (Bytes × Nat × Nat × Nat) :=
  if rdx = 0 then some (st, 0, rdi, rcx)
  else do
    let r9 := sub64 8 rdx
    let r9 := cmovae rcx r9
    let rcx := sub64 rcx r9
    let (st, rsi, rdi) ← bytesLoop op data (r9 + 1) st 0 rdi r9
    some (st, rsi, rdi, rcx)

/-- `KeccakP1600_AddBytes` (s:72-112) and `KeccakP1600_OverwriteBytes` (s:127-167), which differ only in the instruction `op`. -/
def writeBytes (op : Op) (st data : Bytes) (offset length : Nat) : Option Bytes :=
  let rcx := length
  if rcx = 0 then some st
  else do
    let rdi := offset
    let rdx := offset &&& 7
    let (st, rsi, rdi, rcx) ← writeHead op st data rdi rdx rcx
    let (st, rsi, rdi, rcx) ← lanesLoop op data (rcx + 1) st rsi rdi rcx
    let rcx := add64 rcx 8
    if rcx = 0 then some st
    else do
      let (st, _, _) ← bytesLoop op data (rcx + 1) st rsi rdi rcx
      some st

/-- `KeccakP1600_OverwriteWithZeroes_LaneAlignedLoop` and `..._LaneAlignedCheck` (s:188-193). -/
def zeroLanesLoop : Nat → Bytes → Nat → Nat → Option (Bytes × Nat × Nat)
  | 0, _, _, _ => none
  | fuel + 1, st, rdi, rsi =>
    if rsi ≥ 8 then do
      let rsi := sub64 rsi 8
      let st ← wr64 st rdi 0
      let rdi := rdi + 8
      zeroLanesLoop fuel st rdi rsi
    else some (st, rdi, sub64 rsi 8)

/-- `KeccakP1600_OverwriteWithZeroes` (s:182-203). -/
def overwriteWithZeroes (st : Bytes) (byteCount : Nat) : Option Bytes :=
  let rsi := byteCount
  if rsi = 0 then some st
  else do
    let (st, rdi, rsi) ← zeroLanesLoop (rsi + 1) st 0 rsi
    let rsi := add64 rsi 8
    if rsi = 0 then some st else zeroLoop (rsi + 1) st rdi rsi

/-- `KeccakP1600_ExtractBytes_LaneAlignedLoop` and `..._LaneAlignedCheck` (s:239-246). -/
def outLanesLoop (st : Bytes) : Nat → Nat → Nat → Bytes → Option (Nat × Nat × Bytes)
  | 0, _, _, _ => none
  | fuel + 1, rdi, rcx, out =>
    if rcx ≥ 8 then do
      let rcx := sub64 rcx 8
      let r8 ← rd64 st rdi
      let rdi := rdi + 8
      let out := out ++ KeccakP1600.bytesOfWord r8
      outLanesLoop st fuel rdi rcx out
    else some (rdi, sub64 rcx 8, out)

/-- The bytes up to a multiple of 8 of `KeccakP1600_ExtractBytes` (s:224-238). -/
def extractHead (st : Bytes) (rdi rdx rcx : Nat) : Option (Nat × Nat × Bytes) :=
  if rdx = 0 then some (rdi, rcx, [])
  else do
    let rax := sub64 8 rdx
    let rax := cmovae rcx rax
    let rcx := sub64 rcx rax
    let (rdi, out) ← outLoop st (rax + 1) rdi rax []
    some (rdi, rcx, out)

/-- `KeccakP1600_ExtractBytes` (s:218-258): the bytes written. -/
def extractBytes (st : Bytes) (offset length : Nat) : Option Bytes :=
  let rcx := length
  if rcx = 0 then some []
  else do
    let rdi := offset
    let rdx := offset &&& 7
    let (rdi, rcx, out) ← extractHead st rdi rdx rcx
    let (rdi, rcx, out) ← outLanesLoop st (rcx + 1) rdi rcx out
    let rcx := add64 rcx 8
    if rcx = 0 then some out
    else do
      let r8 ← rd64 st rdi
      outWordLoop (rcx + 1) r8 rcx out

/-- `KeccakP1600_ExtractAndAddBytes_LaneAlignedLoop` and `..._LaneAlignedCheck` (s:297-306). -/
def xorOutLanesLoop (st input : Bytes) : Nat → Nat → Nat → Nat → Bytes → Option (Nat × Nat × Nat × Bytes)
  | 0, _, _, _, _ => none
  | fuel + 1, rsi, rdi, r8, out =>
    if r8 ≥ 8 then do
      let r8 := sub64 r8 8
      let r9 ← rd64 st rdi
      let rdi := rdi + 8
      let r9 := r9 ^^^ (← rd64 input rsi)
      let rsi := rsi + 8
      let out := out ++ KeccakP1600.bytesOfWord r9
      xorOutLanesLoop st input fuel rsi rdi r8 out
    else some (rsi, rdi, sub64 r8 8, out)

/-- The bytes up to a multiple of 8 of `KeccakP1600_ExtractAndAddBytes` (s:280-296). -/
def extractAndAddHead (st input : Bytes) (rdi rcx r8 : Nat) : Option (Nat × Nat × Nat × Bytes) :=
  if rcx = 0 then some (0, rdi, r8, [])
  else do
    let rbx := sub64 8 rcx
    let rbx := cmovae r8 rbx
    let r8 := sub64 r8 rbx
    let (rsi, rdi, out) ← xorOutLoop st input (rbx + 1) 0 rdi rbx []
    some (rsi, rdi, r8, out)

/-- `KeccakP1600_ExtractAndAddBytes` (s:273-321): the bytes written; the output does not overlap the input. -/
def extractAndAddBytes (st input : Bytes) (offset length : Nat) : Option Bytes :=
  let r8 := length
  if r8 = 0 then some []
  else do
    let rdi := offset
    let rcx := offset &&& 7
    let (rsi, rdi, r8, out) ← extractAndAddHead st input rdi rcx r8
    let (rsi, rdi, r8, out) ← xorOutLanesLoop st input (r8 + 1) rsi rdi r8 out
    let r8 := add64 r8 8
    if r8 = 0 then some out
    else do
      let r9 ← rd64 st rdi
      xorOutWordLoop input (r8 + 1) r9 rsi r8 out

/-- The functions (s:21-324, h:45) as an implementation of the interface. -/
def access : Access Bytes where
  init := (Avx512Asm.init (List.replicate 200 0xFF)).getD []
  addByte := addByte
  addBytes := writeBytes .xor
  overwriteBytes := writeBytes .mov
  overwriteWithZeroes := overwriteWithZeroes
  extractBytes := extractBytes
  extractAndAddBytes := extractAndAddBytes

/-! ### Fast absorption -/

/-- `..._Loop21Lanes` up to `add $21*8, %rdx` (s:759-769, 898-908): the block at offset `rdx` of the data is added to the state. -/
def addBlock21 (data : Bytes) (rdx : Nat) (s : Regs) : Option Regs := do
  let z5 ← Plane512.maskzLoad k6 data (rdx + 8*0)
  let z6 ← Plane512.maskzLoad k6 data (rdx + 8*5)
  let z7 ← Plane512.maskzLoad k6 data (rdx + 8*10)
  let z8 ← Plane512.maskzLoad k6 data (rdx + 8*15)
  let z9 ← Plane512.maskzLoad k1 data (rdx + 8*20)
  some ⟨vpxorq z5 s.z0, vpxorq z6 s.z1, vpxorq z7 s.z2, vpxorq z8 s.z3, vpxorq z9 s.z4⟩

/-- `..._Loop17Lanes` up to `add $17*8, %rdx` (s:793-802, 932-941). -/
def addBlock17 (data : Bytes) (rdx : Nat) (s : Regs) : Option Regs := do
  let z5 ← Plane512.maskzLoad k6 data (rdx + 8*0)
  let z6 ← Plane512.maskzLoad k6 data (rdx + 8*5)
  let z7 ← Plane512.maskzLoad k6 data (rdx + 8*10)
  let z8 ← Plane512.maskzLoad k1 data (rdx + 8*15)
  let z8 ← loadMerge k2 data (rdx + 8*15) z8
  some ⟨vpxorq z5 s.z0, vpxorq z6 s.z1, vpxorq z7 s.z2, vpxorq z8 s.z3, s.z4⟩

/-- `..._Loop21Lanes` and `..._Loop17Lanes` (s:759-774, 792-807, 898-913, 931-946), `n` being 21 or 17 and `rcx` the number of lanes left, from which
`n` has been subtracted: `jnc` after the subtraction, and `%rcx` is not used after the loop. -/
def regLoop (n : Nat) (addBlock : Bytes → Nat → Regs → Option Regs) (r10 eax : Nat) (data : Bytes) :
    Nat → Nat → Nat → Regs → Option (Regs × Nat)
  | 0, _, _, _ => none
  | fuel + 1, rdx, rcx, s => do
    let s ← addBlock data rdx s
    let rdx := rdx + n*8
    let s ← keccakF1600 (2 ^ 32) r10 eax s
    if rcx ≥ n then regLoop n addBlock r10 eax data fuel rdx (rcx - n) s else some (s, rdx)

/-- `..._LanesAddLoop` (s:814-820, 953-959). -/
def lanesAddLoop (data : Bytes) : Nat → Bytes → Nat → Nat → Nat → Option (Bytes × Nat)
  | 0, _, _, _, _ => none
  | fuel + 1, st, rdx, r10, rax => do
    let r8 ← rd64 data rdx
    let rdx := rdx + 8
    let st ← wr64 st r10 ((← rd64 st r10) ^^^ r8)
    let r10 := r10 + 8
    let rax := sub64 rax 1
    if rax ≠ 0 then lanesAddLoop data fuel st rdx r10 rax else some (st, rdx)

/-- `..._LanesLoop` (s:811-837, 950-976). -/
def memLoop (permute : Bytes → Option Bytes) (rsi : Nat) (data : Bytes) : Nat → Bytes → Nat → Nat → Option (Bytes × Nat)
  | 0, _, _, _ => none
  | fuel + 1, st, rdx, rcx => do
    let rax := rsi
    let (st, rdx) ← lanesAddLoop data 26 st rdx 0 rax
    let rcx := rcx - rsi
    let st ← permute st
    if rcx ≥ rsi then memLoop permute rsi data fuel st rdx rcx else some (st, rdx)

/-- `KeccakF1600_FastLoop_Absorb` (s:713-837) and `KeccakP1600_12rounds_FastLoop_Absorb` (s:852-976), with the constants for `%r10` and `%eax` and the
permutation they call.  The third register argument is the data, whose size is `dataByteLen`; the result is the state and the number of bytes
processed. -/
def fastLoop (r10 eax : Nat) (permute : Bytes → Option Bytes) (st : Bytes) (laneCount : Nat) (data : Bytes) : Option (Bytes × Nat) :=
  let rsi := laneCount
  let rcx := data.length / 2 ^ 3
  if rcx < rsi then some (st, 0)
  else if rsi = 21 then do
    let s ← loadState st
    let rcx := rcx - 21
    let (s, rdx) ← regLoop 21 addBlock21 r10 eax data (rcx + 1) 0 rcx s
    some (← saveState s st, rdx)
  else if rsi = 17 then do
    let s ← loadState st
    let rcx := rcx - 17
    let (s, rdx) ← regLoop 17 addBlock17 r10 eax data (rcx + 1) 0 rcx s
    some (← saveState s st, rdx)
  else memLoop permute rsi data (rcx + 1) st 0 rcx

/-- `KeccakF1600_FastLoop_Absorb` (s:713-837). -/
def fastLoop24 (st : Bytes) (laneCount : Nat) (data : Bytes) : Option (Bytes × Nat) := fastLoop 0 12 permute24 st laneCount data

/-- `KeccakP1600_12rounds_FastLoop_Absorb` (s:852-976). -/
def fastLoop12 (st : Bytes) (laneCount : Nat) (data : Bytes) : Option (Bytes × Nat) := fastLoop (12*8) (12/2) permute12 st laneCount data

end Avx512Asm
