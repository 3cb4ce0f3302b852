import Verif.Base.Bytes

/-!
# The permutation in the compact AVR8 assembly of Keccak-p[1600]

A model of `lib/low/KeccakP-1600/AVR8/KeccakP-1600-avr8-compact.s` (cited as `c`) from line 207 to the end, instruction by instruction.

The data memory that is used consists of the state, 200 bytes, and of the five lanes `C` on the stack, 40 bytes.  They do not overlap.  A pointer is an offset in the one it points to; an access
outside of it gives `none`.  So does a `lpm` behind the tables.  The registers are bytes, and a row of registers that is used as an array is a function of the
index.  The saving of registers and the allocation of `C` (c:308-335, 698-725) are not modelled.
-/

namespace Avr8.Keccak

/-- The state and the lanes `C`. -/
structure M where
  (a c : Nat → Byte)

/-- `ld` and `ldd` from the state. -/
def ldA (m : M) (i : Nat) : Option Byte := if i < 200 then some (m.a i) else none

/-- `st` and `std` to the state. -/
def stA (m : M) (i : Nat) (r : Byte) : Option M := if i < 200 then some ⟨fun j => if j = i then r else m.a j, m.c⟩ else none

/-- `ld` from `C`. -/
def ldC (m : M) (i : Nat) : Option Byte := if i < 40 then some (m.c i) else none

/-- `st` and `std` to `C`. -/
def stC (m : M) (i : Nat) (r : Byte) : Option M := if i < 40 then some ⟨m.a, fun j => if j = i then r else m.c j⟩ else none

/-- A loop with a counter that is `n` at first, that ends with `dec`, `brne`. -/
def rep {σ : Type} (body : σ → Option σ) : Nat → σ → Option σ
  | 0, s => some s
  | n + 1, s => do
    let s ← body s
    rep body n s

/-! ## Rotation of eight registers -/

/-- `rol r`: the register and the carry; `lsl` is the same with carry 0. -/
def rol (r : Byte) (carry : Bool) : Byte × Bool := (r <<< 1 ||| (if carry then 1 else 0), r.getLsbD 7)

/-- `ror r`. -/
def ror (r : Byte) (carry : Bool) : Byte × Bool := (r >>> 1 ||| (if carry then 0x80 else 0), r.getLsbD 0)

/-- `lsl`, seven `rol`, `adc` with a register that is 0 (c:394-402, 520-528). -/
def left1 (t : Nat → Byte) : Nat → Byte :=
  let (t0, carry) := rol (t 0) false
  let (t1, carry) := rol (t 1) carry
  let (t2, carry) := rol (t 2) carry
  let (t3, carry) := rol (t 3) carry
  let (t4, carry) := rol (t 4) carry
  let (t5, carry) := rol (t 5) carry
  let (t6, carry) := rol (t 6) carry
  let (t7, carry) := rol (t 7) carry
  let t0 := t0 + (if carry then 1 else 0)
  fun i => [t0, t1, t2, t3, t4, t5, t6, t7].getD i 0

/-- `bst`, eight `ror`, `bld` (c:502-511); the carry before the first `ror` is arbitrary, and the bit that it gives is replaced by `bld`. -/
def right1 (t : Nat → Byte) : Nat → Byte :=
  let T := (t 0).getLsbD 0
  let (t7, carry) := ror (t 7) false
  let (t6, carry) := ror (t 6) carry
  let (t5, carry) := ror (t 5) carry
  let (t4, carry) := ror (t 4) carry
  let (t3, carry) := ror (t 3) carry
  let (t2, carry) := ror (t 2) carry
  let (t1, carry) := ror (t 1) carry
  let (t0, _) := ror (t 0) carry
  let t7 := t7 &&& 0x7F ||| (if T then 0x80 else 0)
  fun i => [t0, t1, t2, t3, t4, t5, t6, t7].getD i 0

/-- The rotation by a number of bits (c:495-530): `cpi`, `brcs`, `neg`, `andi`, the loop to the right; or `tst`, `breq`, the loop to the left.  The counter `0` of the first
would stand for 256 rotations; it does not occur. -/
def bitRot (n : Byte) (t : Nat → Byte) : Nat → Byte :=
  if n.toNat < 5 then Nat.repeat left1 n.toNat t
  else
    let n := -n &&& 3
    Nat.repeat right1 (if n = 0 then 256 else n.toNat) t

/-! ## Theta -/

/-- The body of `KeccakInitialPrepTheta_Loop` (c:349-363), with the pointers `Y` and `Z`. -/
def prepOne (s : M × Nat × Nat) : Option (M × Nat × Nat) := do
  let (m, y, z) := s
  let r0 ← ldA m y
  let y := y + 40
  let t ← ldA m y
  let y := y + 40
  let r0 := r0 ^^^ t
  let t ← ldA m y
  let y := y + 40
  let r0 := r0 ^^^ t
  let t ← ldA m y
  let r0 := r0 ^^^ t
  let t ← ldA m (y + 40)
  let r0 := r0 ^^^ t
  let m ← stC m z r0
  some (m, y - 119, z + 1)

/-- Eight `ld` with increment from `C` (c:385-392, 404-418). -/
def load8C (m : M) (p : Nat) : Option (Nat → Byte) := do
  let t0 ← ldC m p
  let t1 ← ldC m (p + 1)
  let t2 ← ldC m (p + 2)
  let t3 ← ldC m (p + 3)
  let t4 ← ldC m (p + 4)
  let t5 ← ldC m (p + 5)
  let t6 ← ldC m (p + 6)
  let t7 ← ldC m (p + 7)
  some fun i => [t0, t1, t2, t3, t4, t5, t6, t7].getD i 0

/-- `ld r0, Y`, `eor`, `st Y+, r0` (c:423-425 and so on). -/
def xorOne (t : Byte) (m : M) (y : Nat) : Option M := do
  let r0 ← ldA m y
  stA m y (r0 ^^^ t)

/-- The body of `KeccakTheta_Loop2` (c:423-447), with the pointer `Y`. -/
def xorLane (t : Nat → Byte) (s : M × Nat) : Option (M × Nat) := do
  let (m, y) := s
  let m ← xorOne (t 0) m y
  let m ← xorOne (t 1) m (y + 1)
  let m ← xorOne (t 2) m (y + 2)
  let m ← xorOne (t 3) m (y + 3)
  let m ← xorOne (t 4) m (y + 4)
  let m ← xorOne (t 5) m (y + 5)
  let m ← xorOne (t 6) m (y + 6)
  let m ← xorOne (t 7) m (y + 7)
  some (m, y + 8 + 32)

/-- The body of `KeccakTheta_Loop1` up to the adjustment of the pointers (c:385-453); the pointer `Y` after it is returned too. -/
def thetaLane (m : M) (x z y : Nat) : Option (M × Nat) := do
  let t ← load8C m x
  let t := left1 t
  let u ← load8C m z
  let t := fun i => t i ^^^ u i
  let (m, y) ← rep (xorLane t) 5 (m, y)
  some (m, y - 192)

/-- `KeccakTheta_Loop1` (c:384-466): `TCcoordX` has a 0 for each pointer that wraps around, and a 1 at the top. -/
def thetaLoop : Nat → Nat → M → Nat → Nat → Nat → Option (M × Nat)
  | 0, _, _, _, _, _ => none
  | fuel + 1, coordX, m, x, z, y => do
    let (m, y) ← thetaLane m x z y
    let x := x + 8
    let z := z + 8
    let carry := coordX % 2
    let coordX := coordX / 2
    if carry = 0 then
      if coordX = 0x0B then thetaLoop fuel coordX m x (z - 40) y else thetaLoop fuel coordX m (x - 40) z y
    else if coordX = 0 then some (m, y) else thetaLoop fuel coordX m x z y

/-! ## Rho and pi -/

/-- `ROT_BIT` (c:208). -/
def rotBit (a : Nat) : Nat := a % 8

/-- `ROT_BYTE` (c:209). -/
def rotByte (a : Nat) : Nat := (a / 8 + (if a % 8 > 4 then 1 else 0)) % 8

/-- A row of `KeccakP1600_RhoPiConstants`. -/
def row (a b i : Nat) : Byte × Nat × Nat := (BitVec.ofNat 8 (rotBit a), rotByte b, i * 8)

/-- `KeccakP1600_RhoPiConstants` (c:211-235). -/
def rhoPiConstants : List (Byte × Nat × Nat) :=
  [row 1 3 10, row 3 6 7, row 6 10 11, row 10 15 17, row 15 21 18, row 21 28 3, row 28 36 5, row 36 45 16, row 45 55 8, row 55 2 21, row 2 14 24, row 14 27 4,
    row 27 41 15, row 41 56 23, row 56 8 19, row 8 25 13, row 25 43 12, row 43 62 2, row 62 18 20, row 18 39 14, row 39 61 22, row 61 20 9, row 20 44 6,
    row 44 1 1]

/-- Eight `ld` with increment from the state (c:481-488). -/
def load8A (m : M) (p : Nat) : Option (Nat → Byte) := do
  let t0 ← ldA m p
  let t1 ← ldA m (p + 1)
  let t2 ← ldA m (p + 2)
  let t3 ← ldA m (p + 3)
  let t4 ← ldA m (p + 4)
  let t5 ← ldA m (p + 5)
  let t6 ← ldA m (p + 6)
  let t7 ← ldA m (p + 7)
  some fun i => [t0, t1, t2, t3, t4, t5, t6, t7].getD i 0

/-- Eight `st` with increment (c:554-561). -/
def store8A (m : M) (p : Nat) (t : Nat → Byte) : Option M := do
  let m ← stA m p (t 0)
  let m ← stA m (p + 1) (t 1)
  let m ← stA m (p + 2) (t 2)
  let m ← stA m (p + 3) (t 3)
  let m ← stA m (p + 4) (t 4)
  let m ← stA m (p + 5) (t 5)
  let m ← stA m (p + 6) (t 6)
  stA m (p + 7) (t 7)

/-- The body of `KeccakRhoPi_PiByteRotLoop` (c:544-549): the registers `rTempBis`, the pointer `X` to them, as an index, and the pointer `Y`.  A store outside of
the eight registers gives `none`. -/
def byteOne (m : M) (s : (Nat → Byte) × Nat × Nat) : Option ((Nat → Byte) × Nat × Nat) := do
  let (b, x, y) := s
  let r0 ← ldA m y
  if 8 ≤ x then none
  else
    let b := fun i => if i = x then r0 else b i
    let x := x + 1
    some (b, if x = 8 then 0 else x, y + 1)

/-- The body of `KeccakRhoPi_Loop` (c:494-566), with the registers `rTemp` and `rTempBis`. -/
def rhoPiOne (r : Byte × Nat × Nat) (m : M) (t b : Nat → Byte) : Option (M × (Nat → Byte)) := do
  let t := bitRot r.1 t
  let y := r.2.2
  let (b, _, y) ← rep (byteOne m) 8 (b, r.2.1, y)
  let y := y - 8
  let m ← store8A m y t
  some (m, b)

/-- `KeccakRhoPi_Loop` (c:493-569) on the rest of the table: it ends after the row for lane 1.  `rTemp` is a copy of `rTempBis` after the first row. -/
def rhoPiLoop : List (Byte × Nat × Nat) → M → (Nat → Byte) → (Nat → Byte) → Option M
  | [], _, _, _ => none
  | r :: l, m, t, b => do
    let (m, b) ← rhoPiOne r m t b
    if r.2.2 - 8 = 0 then some m else rhoPiLoop l m b b

/-! ## Chi, iota and the parities -/

/-- `KeccakP1600_RoundConstants_24` and what follows (c:237-264). -/
def constants : Bytes := [
  0x01, 0x00, 0x00, 0x00, 0x00, 0x00, 0x00, 0x00,
  0x82, 0x80, 0x00, 0x00, 0x00, 0x00, 0x00, 0x00,
  0x8a, 0x80, 0x00, 0x00, 0x00, 0x00, 0x00, 0x80,
  0x00, 0x80, 0x00, 0x80, 0x00, 0x00, 0x00, 0x80,
  0x8b, 0x80, 0x00, 0x00, 0x00, 0x00, 0x00, 0x00,
  0x01, 0x00, 0x00, 0x80, 0x00, 0x00, 0x00, 0x00,
  0x81, 0x80, 0x00, 0x80, 0x00, 0x00, 0x00, 0x80,
  0x09, 0x80, 0x00, 0x00, 0x00, 0x00, 0x00, 0x80,
  0x8a, 0x00, 0x00, 0x00, 0x00, 0x00, 0x00, 0x00,
  0x88, 0x00, 0x00, 0x00, 0x00, 0x00, 0x00, 0x00,
  0x09, 0x80, 0x00, 0x80, 0x00, 0x00, 0x00, 0x00,
  0x0a, 0x00, 0x00, 0x80, 0x00, 0x00, 0x00, 0x00,
  0x8b, 0x80, 0x00, 0x80, 0x00, 0x00, 0x00, 0x00,
  0x8b, 0x00, 0x00, 0x00, 0x00, 0x00, 0x00, 0x80,
  0x89, 0x80, 0x00, 0x00, 0x00, 0x00, 0x00, 0x80,
  0x03, 0x80, 0x00, 0x00, 0x00, 0x00, 0x00, 0x80,
  0x02, 0x80, 0x00, 0x00, 0x00, 0x00, 0x00, 0x80,
  0x80, 0x00, 0x00, 0x00, 0x00, 0x00, 0x00, 0x80,
  0x0a, 0x80, 0x00, 0x00, 0x00, 0x00, 0x00, 0x00,
  0x0a, 0x00, 0x00, 0x80, 0x00, 0x00, 0x00, 0x80,
  0x81, 0x80, 0x00, 0x80, 0x00, 0x00, 0x00, 0x80,
  0x80, 0x80, 0x00, 0x00, 0x00, 0x00, 0x00, 0x80,
  0x01, 0x00, 0x00, 0x80, 0x00, 0x00, 0x00, 0x00,
  0x08, 0x80, 0x00, 0x80, 0x00, 0x00, 0x00, 0x80,
  0xFF, 0x00]

/-- The registers `CIPTc0` to `CIPTc4`. -/
structure Cs where
  (c0 c1 c2 c3 c4 : Byte)

/-- The body of `KeccakChiIotaPrepareTheta_yLoop` (c:602-647). -/
def chiRow (s : M × Cs × Nat) : Option (M × Cs × Nat) := do
  let (m, k, y) := s
  let a0 ← ldA m y
  let a1 ← ldA m (y + 8)
  let a2 ← ldA m (y + 16)
  let a3 ← ldA m (y + 24)
  let a4 ← ldA m (y + 32)
  let r0 := ~~~ a1 &&& a2 ^^^ a0
  let c0 := k.c0 ^^^ r0
  let m ← stA m y r0
  let r0 := ~~~ a2 &&& a3 ^^^ a1
  let c1 := k.c1 ^^^ r0
  let m ← stA m (y + 8) r0
  let r0 := ~~~ a3 &&& a4 ^^^ a2
  let c2 := k.c2 ^^^ r0
  let m ← stA m (y + 16) r0
  let r0 := ~~~ a4 &&& a0 ^^^ a3
  let c3 := k.c3 ^^^ r0
  let m ← stA m (y + 24) r0
  let a0 := ~~~ a0 &&& a1 ^^^ a4
  let c4 := k.c4 ^^^ a0
  let m ← stA m (y + 32) a0
  some (m, ⟨c0, c1, c2, c3, c4⟩, y + 40)

/-- The body of `KeccakChiIotaPrepareTheta_zLoop` (c:595-668), with the pointers `Y` to the state, `X` to `C` and `Z` to the constants. -/
def chiSlice (s : M × Nat × Nat × Nat) : Option (M × Nat × Nat × Nat) := do
  let (m, y, x, z) := s
  let (m, k, y) ← rep chiRow 5 (m, ⟨0, 0, 0, 0, 0⟩, y)
  let y := y - 200
  let r0 ← constants[z]?
  let a0 ← ldA m y
  let m ← stA m y (a0 ^^^ r0)
  let c0 := k.c0 ^^^ r0
  let m ← stC m x c0
  let x := x + 1
  let m ← stC m (x + 7) k.c1
  let m ← stC m (x + 15) k.c2
  let m ← stC m (x + 23) k.c3
  let m ← stC m (x + 31) k.c4
  some (m, y + 1, x, z + 1)

/-! ## The permutation -/

/-- The body of `Keccak_RoundLoop` (c:370-671) up to the test of the terminator, with `pRound` and the registers `rTempBis`, which are not used before they are set. -/
def round (b : Nat → Byte) (m : M) (p : Nat) : Option (M × Nat) := do
  let (m, y) ← thetaLoop 256 0x16 m 8 32 0
  let t ← load8A m (y - 32)
  let m ← rhoPiLoop rhoPiConstants m t b
  let (m, _, _, p) ← rep chiSlice 8 (m, 0, 0, p)
  some (m, p)

/-- `Keccak_RoundLoop` (c:368-690): `lpm r0, Z`, `inc r0`, `breq`. -/
def roundLoop (b : Nat → Byte) : Nat → M → Nat → Option M
  | 0, _, _ => none
  | fuel + 1, m, p => do
    let (m, p) ← round b m p
    let r0 ← constants[p]?
    if r0 + 1 = 0 then some m else roundLoop b fuel m p

/-- `KeccakP1600_Permute` (c:307-726) with `pRound` at offset `p` of the constants. -/
def permute (b : Nat → Byte) (m : M) (p : Nat) : Option M := do
  let (m, _, _) ← rep prepOne 40 (m, 0, 0)
  roundLoop b 256 m p

/-- `KeccakP1600_Permute_Nrounds` (c:278-287): the pointer is computed from the lower byte of the number of rounds, shifted in 8 bits.  An address before the constants gives
`none`. -/
def permuteNrounds (b : Nat → Byte) (m : M) (nrounds : BitVec 16) : Option M :=
  let r26 : Byte := nrounds.setWidth 8
  let r26 := r26 <<< 1 <<< 1 <<< 1
  if r26.toNat ≤ 192 then permute b m (192 - r26.toNat) else none

/-- `KeccakP1600_Permute_24rounds` (c:294-297). -/
def permute24 (b : Nat → Byte) (m : M) : Option M := permute b m 0

/-- `KeccakP1600_Permute_12rounds` (c:304-306). -/
def permute12 (b : Nat → Byte) (m : M) : Option M := permute b m 96

/-- The memory with the state `s` and any bytes in `C`, which the caller of `KeccakP1600_Permute_…` does not set (c:328-335). -/
def ofBytes (s : Bytes) (c : Nat → Byte) : M := ⟨fun i => s.getD i 0, c⟩

/-- The 200 bytes of the state (`KeccakP1600_state`, KeccakP-1600-SnP.h of `AVR8`). -/
def bytes (m : M) : Bytes := (List.range 200).map m.a

end Avr8.Keccak
