import Verif.Model.Avr8Keccak

/-!
# The permutation in the fast AVR8 assembly of Keccak-p[1600]

A model of `lib/low/KeccakP-1600/AVR8/KeccakP-1600-avr8-fast.s` (cited as `f`) from line 362 to the end, instruction by instruction, on the memory of `Model/Avr8Keccak.lean`.

Theta (f:602-707), chi, iota and the parities (f:785-896) and the round constants (f:392-419) have the same instructions and bytes as in `KeccakP-1600-avr8-compact.s`, and the
definitions for them are used again.  The first parities, rho and pi, and the use of the stack in rho and pi differ.

The stack pointer points to the first byte of `C`, and `push` stores to the address in it before it is decremented.  So the first `push` in a round (f:725) replaces the first byte of `C`.
The byte below `C` is a variable of the model.  The saving of registers and the allocation of `C` (f:463-489, 904-932) are not modelled.
-/

namespace Avr8.Fast

open Avr8.Keccak

/-! ## The first parities -/

/-- Eight `ld r0, Y+`, `eor` (f:513-528, 531-546, 549-564, 567-582). -/
def xor8 (m : M) (t : Nat → Byte) (y : Nat) : Option (Nat → Byte) := do
  let u ← load8A m y
  some fun i => t i ^^^ u i

/-- Eight `st Z+` (f:584-591). -/
def store8C (m : M) (p : Nat) (t : Nat → Byte) : Option M := do
  let m ← stC m p (t 0)
  let m ← stC m (p + 1) (t 1)
  let m ← stC m (p + 2) (t 2)
  let m ← stC m (p + 3) (t 3)
  let m ← stC m (p + 4) (t 4)
  let m ← stC m (p + 5) (t 5)
  let m ← stC m (p + 6) (t 6)
  stC m (p + 7) (t 7)

/-- The body of `KeccakInitialPrepTheta_Loop` (f:503-594), with the pointers `Y` and `Z`. -/
def prepLane (s : M × Nat × Nat) : Option (M × Nat × Nat) := do
  let (m, y, z) := s
  let t ← load8A m y
  let y := y + 8
  let y := y + 32
  let t ← xor8 m t y
  let y := y + 8
  let y := y + 32
  let t ← xor8 m t y
  let y := y + 8
  let y := y + 32
  let t ← xor8 m t y
  let y := y + 8
  let y := y + 32
  let t ← xor8 m t y
  let y := y + 8
  let m ← store8C m z t
  some (m, y - 160, z + 8)

/-! ## Rho and pi -/

/-- `ROT_BIT` (f:362). -/
def rotBit (a : Nat) : Nat := a % 8

/-- `ROT_BYTE` (f:363): the offset, in instructions, of a routine that loads a lane. -/
def rotByte (a : Nat) : Nat := (a / 8 + (if a % 8 > 4 then 1 else 0)) % 8 * 9

/-- A row of `KeccakP1600_RhoPiConstants`. -/
def row (a b i : Nat) : Nat × Nat × Nat := (rotBit a, rotByte b, i * 8)

/-- `KeccakP1600_RhoPiConstants` (f:365-389). -/
def rhoPiConstants : List (Nat × Nat × Nat) :=
  [row 1 3 10, row 3 6 7, row 6 10 11, row 10 15 17, row 15 21 18, row 21 28 3, row 28 36 5, row 36 45 16, row 45 55 8, row 55 2 21, row 2 14 24, row 14 27 4,
    row 27 41 15, row 41 56 23, row 56 8 19, row 8 25 13, row 25 43 12, row 43 62 2, row 62 18 20, row 18 39 14, row 39 61 22, row 61 20 9, row 20 44 6,
    row 44 1 1]

/-- `ijmp` into `bit_rot_jmp_table` (f:934-1018) with the given offset; the routines for more than one bit fall through to the next.  A jump behind the table gives `none`. -/
def bitJump (n : Nat) (t : Nat → Byte) : Option (Nat → Byte) :=
  match n with
  | 0 => some t
  | 1 => some (left1 t)
  | 2 => some (left1 (left1 t))
  | 3 => some (left1 (left1 (left1 t)))
  | 4 => some (left1 (left1 (left1 (left1 t))))
  | 5 => some (right1 (right1 (right1 t)))
  | 6 => some (right1 (right1 t))
  | 7 => some (right1 t)
  | _ => none

/-- `ld` with increment to the registers `rTempBis` in the given order. -/
def loadTo (m : M) : List Nat → (Nat → Byte) → Nat → Option ((Nat → Byte) × Nat)
  | [], b, y => some (b, y)
  | x :: l, b, y => do
    let r ← ldA m y
    loadTo m l (fun i => if i = x then r else b i) (y + 1)

/-- `ijmp` to the routines from `rotate64_0byte_left` on (f:1023-1109), with the offset in instructions.  An offset that is not the begin of a routine gives `none`. -/
def byteJump (m : M) (n : Nat) (b : Nat → Byte) (y : Nat) : Option ((Nat → Byte) × Nat) :=
  match n with
  | 0 => loadTo m [0, 1, 2, 3, 4, 5, 6, 7] b y
  | 9 => loadTo m [1, 2, 3, 4, 5, 6, 7, 0] b y
  | 18 => loadTo m [2, 3, 4, 5, 6, 7, 0, 1] b y
  | 27 => loadTo m [3, 4, 5, 6, 7, 0, 1, 2] b y
  | 36 => loadTo m [4, 5, 6, 7, 0, 1, 2, 3] b y
  | 45 => loadTo m [5, 6, 7, 0, 1, 2, 3, 4] b y
  | 54 => loadTo m [6, 7, 0, 1, 2, 3, 4, 5] b y
  | 63 => loadTo m [7, 0, 1, 2, 3, 4, 5, 6] b y
  | _ => none

/-- The body of `KeccakRhoPi_Loop` (f:736-772), with the registers `rTemp` and `rTempBis`; the offset of the routine is read to the first register of `rTempBis`. -/
def rhoPiOne (r : Nat × Nat × Nat) (m : M) (t b : Nat → Byte) : Option (M × (Nat → Byte)) := do
  let b := fun i => if i = 0 then BitVec.ofNat 8 r.2.1 else b i
  let t ← bitJump r.1 t
  let y := r.2.2
  let (b, y) ← byteJump m (b 0).toNat b y
  let y := y - 8
  let m ← store8A m y t
  some (m, b)

/-- `KeccakRhoPi_Loop` (f:734-775) on the rest of the table: it ends after the row for lane 1.  `rTemp` is a copy of `rTempBis` after the first row. -/
def rhoPiLoop : List (Nat × Nat × Nat) → M → (Nat → Byte) → (Nat → Byte) → Option M
  | [], _, _, _ => none
  | r :: l, m, t, b => do
    let (m, b) ← rhoPiOne r m t b
    if r.2.2 - 8 = 0 then some m else rhoPiLoop l m b b

/-! ## The permutation -/

/-- `push` with the stack pointer at the first byte of `C` (f:725). -/
def pushC (m : M) (r : Byte) : M := ⟨m.a, fun j => if j = 0 then r else m.c j⟩

/-- The body of `Keccak_RoundLoop` (f:602-896) up to the test of the terminator.  `base` is the address of `KeccakP1600_RoundConstants_24`, and `p` the offset of `pRound` from it; `pRound` is
pushed (f:725-726) and popped (f:776-777). -/
def round (base : BitVec 16) (b : Nat → Byte) (m : M) (p : Nat) : Option (M × Nat) := do
  let (m, y) ← thetaLoop 256 0x16 m 8 32 0
  let t ← load8A m (y - 32)
  let pRound := base + BitVec.ofNat 16 p
  let m := pushC m (pRound.setWidth 8)
  let below : Byte := (pRound >>> 8).setWidth 8
  let m ← rhoPiLoop rhoPiConstants m t b
  let pRound := below ++ m.c 0
  let (m, _, _, p) ← rep chiSlice 8 (m, 0, 0, (pRound - base).toNat)
  some (m, p)

/-- `Keccak_RoundLoop` (f:602-902): `lpm r0, Z`, `inc r0`, `breq`. -/
def roundLoop (base : BitVec 16) (b : Nat → Byte) : Nat → M → Nat → Option M
  | 0, _, _ => none
  | fuel + 1, m, p => do
    let (m, p) ← round base b m p
    let r0 ← constants[p]?
    if r0 + 1 = 0 then some m else roundLoop base b fuel m p

/-- `KeccakP1600_Permute` (f:462-932) with `pRound` at offset `p` of the constants. -/
def permute (base : BitVec 16) (b : Nat → Byte) (m : M) (p : Nat) : Option M := do
  let (m, _, _) ← rep prepLane 5 (m, 0, 0)
  roundLoop base b 256 m p

/-- `KeccakP1600_Permute_Nrounds` (f:433-442), with the same instructions as in the compact code. -/
def permuteNrounds (base : BitVec 16) (b : Nat → Byte) (m : M) (nrounds : BitVec 16) : Option M :=
  let r26 : Byte := nrounds.setWidth 8
  let r26 := r26 <<< 1 <<< 1 <<< 1
  if r26.toNat ≤ 192 then permute base b m (192 - r26.toNat) else none

/-- `KeccakP1600_Permute_24rounds` (f:449-452). -/
def permute24 (base : BitVec 16) (b : Nat → Byte) (m : M) : Option M := permute base b m 0

/-- `KeccakP1600_Permute_12rounds` (f:459-461). -/
def permute12 (base : BitVec 16) (b : Nat → Byte) (m : M) : Option M := permute base b m 96

/-! ## Interrupts -/

/-- An interrupt: the processor pushes the return address, and `r` is the byte of it that is stored first, with the stack pointer at the first byte of `C`.  The other bytes that are stored are below `C`.
The flag for interrupts is as before the call after the stack pointer is set (f:485-490). -/
def interrupt (m : M) (r : Byte) : M := pushC m r

/-- The body of `Keccak_RoundLoop` with an interrupt between theta and the use of the stack in rho and pi (f:724). -/
def roundInterrupted (base : BitVec 16) (b : Nat → Byte) (m : M) (r : Byte) (p : Nat) : Option (M × Nat) := do
  let (m, y) ← thetaLoop 256 0x16 m 8 32 0
  let t ← load8A m (y - 32)
  let m := interrupt m r
  let pRound := base + BitVec.ofNat 16 p
  let m := pushC m (pRound.setWidth 8)
  let below : Byte := (pRound >>> 8).setWidth 8
  let m ← rhoPiLoop rhoPiConstants m t b
  let pRound := below ++ m.c 0
  let (m, _, _, p) ← rep chiSlice 8 (m, 0, 0, (pRound - base).toNat)
  some (m, p)

/-- `KeccakP1600_Permute` (f:462-932) with an interrupt at `Keccak_RoundLoop` before the first round (f:602). -/
def permuteInterrupted (base : BitVec 16) (b : Nat → Byte) (m : M) (r : Byte) (p : Nat) : Option M := do
  let (m, _, _) ← rep prepLane 5 (m, 0, 0)
  roundLoop base b 256 (interrupt m r) p

end Avr8.Fast
