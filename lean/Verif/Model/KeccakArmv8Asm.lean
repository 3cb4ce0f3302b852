import Verif.Model.X86

/-!
# Keccak-p[1600] in ARMv8-A assembly

Models `lib/low/KeccakP-1600/ARMv8A/KeccakP-1600-armv8a-neon.s` ("s" below), instruction by instruction, in the way described in `Model/X86.lean` for
the x86-64 files: memory areas are lists of bytes that do not overlap, an access outside of an area gives `none`, alignment is not modelled, a
backward jump is a recursive function with fuel, and a conditional jump is a test on the operands of the instruction that set the flags.  The meaning
of the instructions is taken from the Arm manual and is part of the trusted base.  Arguments of type `unsigned int` are assumed to be zero-extended where
the whole register is used (`x2` and `x3` as offsets, `x1` as number of rounds).
-/

namespace Armv8Asm

open KeccakP1600 (Lane bytesOfWord)
open X86 (rd8 wr8 rd64 wr64)

/-- A vector register as two 64-bit elements. -/
abbrev Q := Lane × Lane

/-- `eor vd.16b, vn.16b, vm.16b`. -/
def eor (n m : Q) : Q := (n.1 ^^^ m.1, n.2 ^^^ m.2)

/-- `bic vd.16b, vn.16b, vm.16b`: the bits of `vn` that are not in `vm`. -/
def bic (n m : Q) : Q := (n.1 &&& ~~~ m.1, n.2 &&& ~~~ m.2)

/-- `trn1 vd.2d, vn.2d, vm.2d`: the elements 0. -/
def trn1 (n m : Q) : Q := (n.1, m.1)

/-- `trn2 vd.2d, vn.2d, vm.2d`: the elements 1. -/
def trn2 (n m : Q) : Q := (n.2, m.2)

/-- `ext vd.16b, vn.16b, vm.16b, #8`: the bytes of `vn` from 8 on and then those of `vm`. -/
def ext8 (n m : Q) : Q := (n.2, m.1)

/-- `shl vd.2d, vn.2d, #k`. -/
def shl (n : Q) (k : Nat) : Q := (n.1 <<< k, n.2 <<< k)

/-- An element of `sri`: the bits of `n` shifted to the right are inserted, the upper `k` bits of `d` are kept. -/
def sriElem (d n : Lane) (k : Nat) : Lane := (d &&& ~~~ (BitVec.allOnes 64 >>> k)) ||| (n >>> k)

/-- `sri vd.2d, vn.2d, #k`. -/
def sri (d n : Q) (k : Nat) : Q := (sriElem d.1 n.1 k, sriElem d.2 n.2 k)

/-- `ROTL64 dst, src, rot` (s:72-80) for a rotation that is not by whole bytes; it is used for `rot = 1` only. -/
def rotl64 (src : Q) (rot : Nat) : Q :=
  let dst := shl src rot
  sri dst src (64 - rot)

/-- The registers of the state.  `v31` has a lane in element 0 only. -/
structure Regs where
  (v19 v20 v21 v22 v23 v24 v25 v26 v27 v28 v29 v30 v31 : Q)

/-- Theta (s:84-136). -/
def theta (r : Regs) : Regs :=
  let ⟨v19, v20, v21, v22, v23, v24, v25, v26, v27, v28, v29, v30, v31⟩ := r
  let v0 := eor v19 v25
  let v1 := eor v20 v26
  let v2 := eor v21 v28
  let v3 := eor v22 v23
  let v4 := eor v24 v30
  let v1 := eor v1 v27
  let v3 := eor v3 v29
  let v5 := trn1 v0 v1
  let v6 := trn2 v1 v2
  let v1 := eor v5 v6
  let v5 := ext8 v4 v2
  let v3 := eor v3 v5
  let v5 : Q := (v0.2, v5.2)
  let v4 := eor v4 v5
  let v4 := eor v4 v31
  let v2 := ext8 v1 v1
  let v4 : Q := (v4.1, v3.1)
  let v0 := trn2 v3 v1
  let v5 := rotl64 v2 1
  let v6 := rotl64 v3 1
  let v7 := rotl64 v4 1
  let v18 := eor v4 v5
  let v2 := eor v2 v6
  let v0 := eor v0 v7
  let v7 := ext8 v5 v7
  let v7 := eor v3 v7
  let v6 := ext8 v6 v5
  let v4 := trn1 v1 v4
  let v6 := eor v4 v6
  let v19 := eor v19 v18
  let v20 := eor v20 v6
  let v21 := eor v21 v2
  let v22 := eor v22 v0
  let v23 := eor v23 v0
  let v24 := eor v24 v7
  let v25 := eor v25 v18
  let v26 := eor v26 v6
  let v27 := eor v27 v6
  let v28 := eor v28 v2
  let v29 := eor v29 v0
  let v30 := eor v30 v7
  let v31 := eor v31 v7
  ⟨v19, v20, v21, v22, v23, v24, v25, v26, v27, v28, v29, v30, v31⟩

/-- Rho and pi, with `x10` and `x11` (s:139-166). -/
def rhoPi (r : Regs) : Regs :=
  let ⟨v19, v20, v21, v22, v23, v24, v25, v26, v27, v28, v29, v30, v31⟩ := r
  let x11 := v20.1
  let x11 := x11.rotateRight (64 - 1)
  let x10 := v25.1
  let v25 : Q := (x11, v25.2)
  let x10 := x10.rotateRight (64 - 3)
  let x11 := v22.2
  let v22 : Q := (v22.1, x10)
  let x11 := x11.rotateRight (64 - 6)
  let x10 := v26.1
  let v26 : Q := (x11, v26.2)
  let x10 := x10.rotateRight (64 - 10)
  let x11 := v28.1
  let v28 : Q := (x10, v28.2)
  let x11 := x11.rotateRight (64 - 15)
  let x10 := v29.1
  let v29 : Q := (x11, v29.2)
  let x10 := x10.rotateRight (64 - 21)
  let x11 := v22.1
  let v22 : Q := (x10, v22.2)
  let x11 := x11.rotateRight (64 - 28)
  let x10 := v20.2
  let v20 : Q := (v20.1, x11)
  let x10 := x10.rotateRight (64 - 36)
  let x11 := v27.1
  let v27 : Q := (x10, v27.2)
  let x11 := x11.rotateRight (64 - 45)
  let x10 := v23.1
  let v23 : Q := (x11, v23.2)
  let x10 := x10.rotateRight (64 - 55)
  let x11 := v28.2
  let v28 : Q := (v28.1, x10)
  let x11 := x11.rotateRight (64 - 2)
  let x10 := v31.1
  let v31 : Q := (x11, v31.2)
  let x10 := x10.rotateRight (64 - 14)
  let x11 := v19.2
  let v19 : Q := (v19.1, x10)
  let x11 := x11.rotateRight (64 - 27)
  let x10 := v26.2
  let v26 : Q := (v26.1, x11)
  let x10 := x10.rotateRight (64 - 41)
  let x11 := v30.2
  let v30 : Q := (v30.1, x10)
  let x11 := x11.rotateRight (64 - 56)
  let x10 := v30.1
  let v30 : Q := (x11, v30.2)
  let x10 := x10.rotateRight (64 - 8)
  let x11 := v24.2
  let v24 : Q := (v24.1, x10)
  let x11 := x11.rotateRight (64 - 25)
  let x10 := v23.2
  let v23 : Q := (v23.1, x11)
  let x10 := x10.rotateRight (64 - 43)
  let x11 := v21.1
  let v21 : Q := (x10, v21.2)
  let x11 := x11.rotateRight (64 - 62)
  let x10 := v27.2
  let v27 : Q := (v27.1, x11)
  let x10 := x10.rotateRight (64 - 18)
  let x11 := v25.2
  let v25 : Q := (v25.1, x10)
  let x11 := x11.rotateRight (64 - 39)
  let x10 := v29.2
  let v29 : Q := (v29.1, x11)
  let x10 := x10.rotateRight (64 - 61)
  let x11 := v24.1
  let v24 : Q := (x10, v24.2)
  let x11 := x11.rotateRight (64 - 20)
  let x10 := v21.2
  let v21 : Q := (v21.1, x11)
  let x10 := x10.rotateRight 20
  let v20 : Q := (x10, v20.2)
  ⟨v19, v20, v21, v22, v23, v24, v25, v26, v27, v28, v29, v30, v31⟩

/-- Chi (s:169-226). -/
def chi (r : Regs) : Regs :=
  let ⟨v19, v20, v21, v22, v23, v24, v25, v26, v27, v28, v29, v30, v31⟩ := r
  let v18 := ext8 v26 v31
  let v6 := bic v27 v18
  let v17 := ext8 v26 v31
  let v5 := bic v17 v30
  let v3 := bic v30 v29
  let v30 := eor v30 v6
  let v18 := trn1 v26 v25
  let v17 := ext8 v23 v26
  let v7 := bic v17 v18
  let v18 := trn2 v20 v25
  let v17 := ext8 v21 v25
  let v6 := bic v17 v18
  let v18 := trn1 v20 v19
  let v17 := trn1 v21 v20
  let v1 := bic v17 v18
  let v18 := ext8 v19 v23
  let v17 := trn1 v19 v24
  let v0 := bic v17 v18
  let v18 := ext8 v23 v27
  let v17 := ext8 v24 v28
  let v4 := bic v17 v18
  let v18 : Q := (v27.2, v18.2)
  let v17 : Q := (v28.2, v17.2)
  let v2 := bic v17 v18
  let v31 := eor v31 v2
  let v2 := bic v29 v28
  let v27 := eor v27 v2
  let v2 := bic v22 v21
  let v28 := eor v28 v3
  let v29 := eor v29 v5
  let v17 := ext8 v19 v23
  let v3 := bic v17 v22
  let v17 := trn2 v20 v25
  let v5 := bic v17 v24
  let v19 := eor v19 v1
  let v20 := eor v20 v2
  let v21 := eor v21 v3
  let v22 := eor v22 v0
  let v23 := eor v23 v5
  let v24 := eor v24 v6
  let v25 := eor v25 v7
  let v26 := eor v26 v4
  ⟨v19, v20, v21, v22, v23, v24, v25, v26, v27, v28, v29, v30, v31⟩

/-- `KeccakRound` (s:82-231); "Iota" is its last part (s:229-230), with the constant in `v16`, of which the element 1 has been cleared (s:55). -/
def keccakRound (rc : Lane) (r : Regs) : Regs :=
  let r := chi (rhoPi (theta r))
  let v16 : Q := (rc, 0)
  { r with v19 := eor r.v19 v16 }

/-- `ld4 { v0.2d, v1.2d, v2.2d, v3.2d }, [a]`: two structures of four elements each. -/
def ld4 (m : Bytes) (a : Nat) : Option (Q × Q × Q × Q) := do
  let w0 ← rd64 m a
  let w1 ← rd64 m (a + 8)
  let w2 ← rd64 m (a + 16)
  let w3 ← rd64 m (a + 24)
  let w4 ← rd64 m (a + 32)
  let w5 ← rd64 m (a + 40)
  let w6 ← rd64 m (a + 48)
  let w7 ← rd64 m (a + 56)
  some ((w0, w4), (w1, w5), (w2, w6), (w3, w7))

/-- The words that `st4 { v0.2d, v1.2d, v2.2d, v3.2d }` stores, in the order of the memory. -/
def words4 (q : Q × Q × Q × Q) : List Lane :=
  let ⟨v0, v1, v2, v3⟩ := q
  [v0.1, v1.1, v2.1, v3.1, v0.2, v1.2, v2.2, v3.2]

/-- Stores of consecutive words. -/
def wrWords (m : Bytes) (a : Nat) : List Lane → Option Bytes
  | [] => some m
  | w :: ws => do
    let m ← wr64 m a w
    wrWords m (a + 8) ws

/-- `st4 { v0.2d, v1.2d, v2.2d, v3.2d }, [a]`. -/
def st4 (m : Bytes) (a : Nat) (q : Q × Q × Q × Q) : Option Bytes := wrWords m a (words4 q)

/-- `LoadState` (s:49-56); `junk` is what is in element 1 of `v31`. -/
def loadState (junk : Lane) (st : Bytes) : Option Regs := do
  let ⟨v19, v20, v21, v22⟩ ← ld4 st 0
  let ⟨v23, v24, v25, v26⟩ ← ld4 st 64
  let ⟨v27, v28, v29, v30⟩ ← ld4 st 128
  let w ← rd64 st 192
  some ⟨v19, v20, v21, v22, v23, v24, v25, v26, v27, v28, v29, v30, (w, junk)⟩

/-- `StoreState` (s:58-63). -/
def storeState (r : Regs) (st : Bytes) : Option Bytes := do
  let st ← st4 st 0 (r.v19, r.v20, r.v21, r.v22)
  let st ← st4 st 64 (r.v23, r.v24, r.v25, r.v26)
  let st ← st4 st 128 (r.v27, r.v28, r.v29, r.v30)
  wr64 st 192 r.v31.1

/-- `KeccakP1600_Permute_RoundConstants24`, `..._RoundConstants12` and `..._RoundConstants0` (s:234-260), at the addresses 0, 96 and 192 of the table. -/
def roundConstants : List Lane := [
  0x0000000000000001, 0x0000000000008082, 0x800000000000808a, 0x8000000080008000, 0x000000000000808b, 0x0000000080000001,
  0x8000000080008081, 0x8000000000008009, 0x000000000000008a, 0x0000000000000088, 0x0000000080008009, 0x000000008000000a,
  0x000000008000808b, 0x800000000000008b, 0x8000000000008089, 0x8000000000008003, 0x8000000000008002, 0x8000000000000080,
  0x000000000000800a, 0x800000008000000a, 0x8000000080008081, 0x8000000000008080, 0x0000000080000001, 0x8000000080008008]

/-- The table in memory. -/
def constantBytes : Bytes := roundConstants.flatMap bytesOfWord

/-- `subs` on 32-bit registers; `b.cc` jumps when `a < b`. -/
def sub32 (a b : Nat) : Nat := (2 ^ 32 + a - b) % 2 ^ 32

/-- `add` on 32-bit registers. -/
def add32 (a b : Nat) : Nat := (a + b) % 2 ^ 32

/-- `KeccakP1600_Permute_RoundLoop` (s:534-537); `x1` is the address of the constant and `w2` the counter. -/
def roundLoop : Nat → Nat → Nat → Regs → Option Regs
  | 0, _, _, _ => none
  | fuel + 1, x1, w2, r => do
    let rc ← rd64 constantBytes x1
    let x1 := x1 + 8
    let r := keccakRound rc r
    let w2 := sub32 w2 1
    if w2 ≠ 0 then roundLoop fuel x1 w2 r else some r

/-- `KeccakP1600_Permute` (s:532-540). -/
def permute (junk : Lane) (st : Bytes) (x1 x2 : Nat) : Option Bytes := do
  let r ← loadState junk st
  let r ← roundLoop (2 ^ 32) x1 (x2 % 2 ^ 32) r
  storeState r st

/-- `KeccakP1600_Permute_Nrounds` (s:496-501); an address before the table is undefined. -/
def permuteNrounds (junk : Lane) (st : Bytes) (nrounds : Nat) : Option Bytes :=
  let x2 := nrounds
  let x3 := x2 * 2 ^ 3
  if 192 < x3 then none else permute junk st (192 - x3) x2

/-- `KeccakP1600_Permute_12rounds` (s:509-512). -/
def permute12 (junk : Lane) (st : Bytes) : Option Bytes := permute junk st 96 12

/-- `KeccakP1600_Permute_24rounds` (s:521-524). -/
def permute24 (junk : Lane) (st : Bytes) : Option Bytes := permute junk st 0 24

/-! ### Access to the bytes of the state -/

/-- `KeccakP1600_Initialize` (s:268-277). -/
def init (st : Bytes) : Option Bytes := do
  let v0 : Q := (0, 0)
  let v1 : Q := (0, 0)
  let v2 : Q := (0, 0)
  let v3 : Q := (0, 0)
  let st ← st4 st 0 (v0, v1, v2, v3)
  let st ← st4 st 64 (v0, v1, v2, v3)
  let st ← st4 st 128 (v0, v1, v2, v3)
  wr64 st 192 v0.1

/-- `KeccakP1600_AddByte` (s:286-290). -/
def addByte (st : Bytes) (byte : Byte) (offset : Nat) : Option Bytes := do
  let w3 ← rd8 st offset
  wr8 st offset (w3 ^^^ byte)

/-- A loop `subs n, n, #k`, `b.cc` to the end, the body, which includes the additions to the pointers, and `b` to the beginning. -/
def blockLoop {σ : Type} (k : Nat) (body : σ → Option σ) : Nat → σ → Nat → Option (σ × Nat)
  | 0, _, _ => none
  | fuel + 1, s, n =>
    if n < k then some (s, sub32 n k)
    else do
      let s ← body s
      blockLoop k body fuel s (sub32 n k)

/-- What the functions on several bytes have in common (s:299-335, 343-370, 379-407, 416-443, 452-488): the exit if there are no bytes, and the loops over 8 lanes, over lanes and
over bytes, with the `add` after each of the first two. -/
def stages {σ : Type} (lanes8 lane byte : σ → Option σ) (s : σ) (n : Nat) : Option σ :=
  if n < 1 then some s
  else do
    let ⟨s, n⟩ ← blockLoop 64 lanes8 (2 ^ 32) s n
    let n := add32 n 64
    let ⟨s, n⟩ ← blockLoop 8 lane (2 ^ 32) s n
    let n := add32 n 8
    let ⟨s, _⟩ ← blockLoop 1 byte (2 ^ 32) s n
    some s

/-- The state, the pointer to the state and the pointer to the data. -/
structure Wr where
  st : Bytes
  (x0 x1 : Nat)

/-- Four times `eor`. -/
def eor4 (p q : Q × Q × Q × Q) : Q × Q × Q × Q :=
  let ⟨v0, v1, v2, v3⟩ := p
  let ⟨v4, v5, v6, v7⟩ := q
  (eor v0 v4, eor v1 v5, eor v2 v6, eor v3 v7)

/-- The body of `KeccakP1600_AddBytes_8LanesLoop` (s:306-312). -/
def add8Lanes (data : Bytes) (s : Wr) : Option Wr := do
  let p ← ld4 s.st s.x0
  let q ← ld4 data s.x1
  let st ← st4 s.st s.x0 (eor4 p q)
  some ⟨st, s.x0 + 64, s.x1 + 64⟩

/-- The body of `KeccakP1600_AddBytes_LanesLoop` (s:319-322). -/
def addLane (data : Bytes) (s : Wr) : Option Wr := do
  let v0 ← rd64 s.st s.x0
  let v4 ← rd64 data s.x1
  let st ← wr64 s.st s.x0 (v0 ^^^ v4)
  some ⟨st, s.x0 + 8, s.x1 + 8⟩

/-- The body of `KeccakP1600_AddBytes_BytesLoop` (s:329-332). -/
def addOne (data : Bytes) (s : Wr) : Option Wr := do
  let w4 ← rd8 s.st s.x0
  let w5 ← rd8 data s.x1
  let st ← wr8 s.st s.x0 (w4 ^^^ w5)
  some ⟨st, s.x0 + 1, s.x1 + 1⟩

/-- `KeccakP1600_AddBytes` (s:299-335). -/
def addBytes (st data : Bytes) (offset length : Nat) : Option Bytes := do
  some (← stages (add8Lanes data) (addLane data) (addOne data) ⟨st, offset, 0⟩ length).st

/-- The body of `KeccakP1600_OverwriteBytes_8LanesLoop` (s:350-351). -/
def overwrite8Lanes (data : Bytes) (s : Wr) : Option Wr := do
  let p ← ld4 data s.x1
  let st ← st4 s.st s.x0 p
  some ⟨st, s.x0 + 64, s.x1 + 64⟩

/-- The body of `KeccakP1600_OverwriteBytes_LanesLoop` (s:358-359). -/
def overwriteLane (data : Bytes) (s : Wr) : Option Wr := do
  let v0 ← rd64 data s.x1
  let st ← wr64 s.st s.x0 v0
  some ⟨st, s.x0 + 8, s.x1 + 8⟩

/-- The body of `KeccakP1600_OverwriteBytes_BytesLoop` (s:366-367). -/
def overwriteOne (data : Bytes) (s : Wr) : Option Wr := do
  let w4 ← rd8 data s.x1
  let st ← wr8 s.st s.x0 w4
  some ⟨st, s.x0 + 1, s.x1 + 1⟩

/-- `KeccakP1600_OverwriteBytes` (s:343-370). -/
def overwriteBytes (st data : Bytes) (offset length : Nat) : Option Bytes := do
  some (← stages (overwrite8Lanes data) (overwriteLane data) (overwriteOne data) ⟨st, offset, 0⟩ length).st

/-- The state and the pointer to it. -/
structure Oz where
  st : Bytes
  x0 : Nat

/-- The body of `KeccakP1600_OverwriteWithZeroes_8LanesLoop` (s:390). -/
def zero8Lanes (s : Oz) : Option Oz := do
  let st ← st4 s.st s.x0 ((0, 0), (0, 0), (0, 0), (0, 0))
  some ⟨st, s.x0 + 64⟩

/-- The body of `KeccakP1600_OverwriteWithZeroes_LanesLoop` (s:397). -/
def zeroLane (s : Oz) : Option Oz := do
  let st ← wr64 s.st s.x0 0
  some ⟨st, s.x0 + 8⟩

/-- The body of `KeccakP1600_OverwriteWithZeroes_LoopBytes` (s:404). -/
def zeroOne (s : Oz) : Option Oz := do
  let st ← wr8 s.st s.x0 0
  some ⟨st, s.x0 + 1⟩

/-- `KeccakP1600_OverwriteWithZeroes` (s:379-407). -/
def overwriteWithZeroes (st : Bytes) (byteCount : Nat) : Option Bytes := do
  some (← stages zero8Lanes zeroLane zeroOne ⟨st, 0⟩ byteCount).st

/-- The bytes written and the pointer to the state. -/
structure Ex where
  out : Bytes
  x0 : Nat

/-- The body of `KeccakP1600_ExtractBytes_8LanesLoop` (s:423-424). -/
def extract8Lanes (st : Bytes) (s : Ex) : Option Ex := do
  let p ← ld4 st s.x0
  some ⟨s.out ++ (words4 p).flatMap bytesOfWord, s.x0 + 64⟩

/-- The body of `KeccakP1600_ExtractBytes_LanesLoop` (s:431-432). -/
def extractLane (st : Bytes) (s : Ex) : Option Ex := do
  let v0 ← rd64 st s.x0
  some ⟨s.out ++ bytesOfWord v0, s.x0 + 8⟩

/-- The body of `KeccakP1600_ExtractBytes_BytesLoop` (s:439-440). -/
def extractOne (st : Bytes) (s : Ex) : Option Ex := do
  let w4 ← rd8 st s.x0
  some ⟨s.out ++ [w4], s.x0 + 1⟩

/-- `KeccakP1600_ExtractBytes` (s:416-443). -/
def extractBytes (st : Bytes) (offset length : Nat) : Option Bytes := do
  some (← stages (extract8Lanes st) (extractLane st) (extractOne st) ⟨[], offset⟩ length).out

/-- The bytes written, the pointer to the state and the pointer to the input. -/
structure Ea where
  out : Bytes
  (x0 x1 : Nat)

/-- The body of `KeccakP1600_ExtractAndAddBytes_8LanesLoop` (s:459-465). -/
def extractAdd8Lanes (st input : Bytes) (s : Ea) : Option Ea := do
  let p ← ld4 st s.x0
  let q ← ld4 input s.x1
  some ⟨s.out ++ (words4 (eor4 p q)).flatMap bytesOfWord, s.x0 + 64, s.x1 + 64⟩

/-- The body of `KeccakP1600_ExtractAndAddBytes_LanesLoop` (s:472-475). -/
def extractAddLane (st input : Bytes) (s : Ea) : Option Ea := do
  let v0 ← rd64 st s.x0
  let v4 ← rd64 input s.x1
  some ⟨s.out ++ bytesOfWord (v0 ^^^ v4), s.x0 + 8, s.x1 + 8⟩

/-- The body of `KeccakP1600_ExtractAndAddBytes_BytesLoop` (s:482-485). -/
def extractAddOne (st input : Bytes) (s : Ea) : Option Ea := do
  let w5 ← rd8 st s.x0
  let w6 ← rd8 input s.x1
  some ⟨s.out ++ [w5 ^^^ w6], s.x0 + 1, s.x1 + 1⟩

/-- `KeccakP1600_ExtractAndAddBytes` (s:452-488). -/
def extractAndAddBytes (st input : Bytes) (offset length : Nat) : Option Bytes := do
  some (← stages (extractAdd8Lanes st input) (extractAddLane st input) (extractAddOne st input) ⟨[], offset, 0⟩ length).out

/-- The functions that access the bytes of a state. -/
def access : Access Bytes where
  init := (Armv8Asm.init (List.replicate 200 0)).getD []
  addByte := Armv8Asm.addByte
  addBytes := Armv8Asm.addBytes
  overwriteBytes := Armv8Asm.overwriteBytes
  overwriteWithZeroes := Armv8Asm.overwriteWithZeroes
  extractBytes := Armv8Asm.extractBytes
  extractAndAddBytes := Armv8Asm.extractAndAddBytes

end Armv8Asm
