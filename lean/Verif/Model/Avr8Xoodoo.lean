import Verif.Model.Avr8Keccak

/-!
# The permutation in the AVR8 assembly of Xoodoo

A model of `lib/low/Xoodoo/AVR8/Xoodoo-avr8-u1.s` (cited as `x`) from line 362 to the end.

The state is twelve rows of four bytes, and so are the registers `rC0` to `rC3`, `rVv` and `rTt`.  The instructions for the four bytes of a lane, which the code interleaves,
are grouped: `ldd`, `eor` and `std` for byte 0, for byte 1 and so on become one load, one `eor4` and one store.  No byte that is written in such a group is read by the rest of the
group, and none of the interleaved instructions between `lsl` and `adc` (`std`, `eor`) changes the carry.  All offsets from `Y` are constants below 48.  The saving of registers
(x:442-459, 1323-1341) is not modelled.  A `lpm` outside of the table of constants gives `none`.
-/

namespace Avr8.Xoodoo

open Avr8.Keccak (rol ror)

/-- Four consecutive bytes, in memory or in registers. -/
structure B4 where
  (b0 b1 b2 b3 : Byte)

/-- Four `eor`. -/
def eor4 (v w : B4) : B4 := ⟨v.b0 ^^^ w.b0, v.b1 ^^^ w.b1, v.b2 ^^^ w.b2, v.b3 ^^^ w.b3⟩

/-- Four `and`. -/
def and4 (v w : B4) : B4 := ⟨v.b0 &&& w.b0, v.b1 &&& w.b1, v.b2 &&& w.b2, v.b3 &&& w.b3⟩

/-- Four `com`. -/
def com4 (v : B4) : B4 := ⟨~~~ v.b0, ~~~ v.b1, ~~~ v.b2, ~~~ v.b3⟩

/-- The bytes of a lane moved up by one place (for instance x:550-553, 580-583). -/
def up (v : B4) : B4 := ⟨v.b3, v.b0, v.b1, v.b2⟩

/-- The bytes of a lane moved down by one place (x:1068-1096). -/
def down (v : B4) : B4 := ⟨v.b1, v.b2, v.b3, v.b0⟩

/-- `lsl`, three `rol`, `adc` with a register that is 0 (for instance x:554-558). -/
def left1 (v : B4) : B4 :=
  let (b0, carry) := rol v.b0 false
  let (b1, carry) := rol v.b1 carry
  let (b2, carry) := rol v.b2 carry
  let (b3, carry) := rol v.b3 carry
  let b0 := b0 + (if carry then 1 else 0)
  ⟨b0, b1, b2, b3⟩

/-- `bst`, four `ror`, `bld` (for instance x:563-568); the carry before the first `ror` is arbitrary, and the bit that it gives is replaced by `bld`. -/
def right1 (v : B4) : B4 :=
  let T := v.b0.getLsbD 0
  let (b3, carry) := ror v.b3 false
  let (b2, carry) := ror v.b2 carry
  let (b1, carry) := ror v.b1 carry
  let (b0, _) := ror v.b0 carry
  let b3 := b3 &&& 0x7F ||| (if T then 0x80 else 0)
  ⟨b0, b1, b2, b3⟩

/-- The state (`a00` to `a23`, x:389-400). -/
structure S where
  (a00 a01 a02 a03 a10 a11 a12 a13 a20 a21 a22 a23 : B4)

/-- The registers `rC0` to `rC3`. -/
structure C where
  (c0 c1 c2 c3 : B4)

/-- The initial parities (x:461-545). -/
def prepare (s : S) : C :=
  let c : C := ⟨s.a00, s.a01, s.a02, s.a03⟩
  let c : C := ⟨eor4 c.c0 s.a10, eor4 c.c1 s.a11, eor4 c.c2 s.a12, eor4 c.c3 s.a13⟩
  ⟨eor4 c.c0 s.a20, eor4 c.c1 s.a21, eor4 c.c2 s.a22, eor4 c.c3 s.a23⟩

/-- The effect of a column (x:549-583, and the same for the other three). -/
def effect (c : B4) : B4 :=
  let v := up c
  let v := left1 v
  let v := eor4 v c
  let v := right1 v
  let v := right1 v
  let v := right1 v
  up v

/-- A lane of plane 2 in theta and rho west (x:755-782, and the same for the other three). -/
def west (a c : B4) : B4 :=
  let v := up (eor4 a c)
  let v := left1 v
  let v := left1 v
  left1 v

/-- Theta and rho west (x:548-913): the state, and plane 0 in the registers. -/
def theta (s : S) (c : C) : S × C :=
  let c : C := ⟨effect c.c0, effect c.c1, effect c.c2, effect c.c3⟩
  let v := s.a13
  let s := { s with a13 := eor4 s.a12 c.c1 }
  let s := { s with a12 := eor4 s.a11 c.c0 }
  let s := { s with a11 := eor4 s.a10 c.c3 }
  let s := { s with a10 := eor4 v c.c2 }
  let s := { s with a20 := west s.a20 c.c3 }
  let s := { s with a21 := west s.a21 c.c0 }
  let s := { s with a22 := west s.a22 c.c1 }
  let s := { s with a23 := west s.a23 c.c2 }
  let v := c.c3
  let c := { c with c3 := eor4 s.a03 c.c2 }
  let c := { c with c2 := eor4 s.a02 c.c1 }
  let c := { c with c1 := eor4 s.a01 c.c0 }
  let c := { c with c0 := eor4 s.a00 v }
  (s, c)

/-- Iota (x:915-919): only two bytes are changed. -/
def iota (k0 k1 : Byte) (c : C) : C :=
  { c with c0 := { c.c0 with b0 := c.c0.b0 ^^^ k0, b1 := c.c0.b1 ^^^ k1 } }

/-- Chi, rho east and the parity of column 0 (x:921-1014). -/
def chi0 (s : S) (c : C) : S × C :=
  let r0 := com4 s.a10
  let t := s.a20
  let r0 := and4 r0 t
  let c := { c with c0 := eor4 c.c0 r0 }
  let s := { s with a00 := c.c0 }
  let t := com4 t
  let t := and4 t c.c0
  let t := eor4 t s.a10
  let s := { s with a10 := t }
  let v := t
  let r0 := com4 c.c0
  let t := and4 t r0
  let t := eor4 t s.a20
  let s := { s with a20 := up t }
  let v := left1 v
  let s := { s with a10 := v }
  let c := { c with c0 := eor4 c.c0 v }
  (s, c)

/-- Chi, rho east and the parity of column 2 (x:1016-1123). -/
def chi2 (s : S) (c : C) : S × C :=
  let r0 := com4 s.a12
  let v := s.a22
  let r0 := and4 r0 v
  let c := { c with c2 := eor4 c.c2 r0 }
  let s := { s with a02 := c.c2 }
  let r0 := com4 v
  let r0 := and4 r0 c.c2
  let t := s.a12
  let t := eor4 t r0
  let s := { s with a12 := t }
  let r0 := com4 c.c2
  let r0 := and4 r0 t
  let r0 := eor4 r0 v
  let v := down s.a20
  let s := { s with a20 := up r0 }
  let c := { c with c0 := eor4 c.c0 (up r0) }
  let t := left1 t
  let c := { c with c2 := eor4 c.c2 t }
  let s := { s with a12 := t }
  let s := { s with a22 := up v }
  let c := { c with c2 := eor4 c.c2 (up v) }
  (s, c)

/-- Chi, rho east and the parity of column 1 (x:1125-1208); `v` is the lane of plane 2, not yet rotated. -/
def chi1 (s : S) (c : C) : S × C × B4 :=
  let t := s.a11
  let r0 := com4 t
  let v := s.a21
  let r0 := and4 r0 v
  let c := { c with c1 := eor4 c.c1 r0 }
  let s := { s with a01 := c.c1 }
  let r0 := com4 v
  let r0 := and4 r0 c.c1
  let t := eor4 t r0
  let s := { s with a11 := t }
  let r0 := com4 c.c1
  let r0 := and4 r0 t
  let v := eor4 v r0
  let t := left1 t
  let c := { c with c1 := eor4 c.c1 t }
  let s := { s with a11 := t }
  (s, c, v)

/-- Chi, rho east and the parity of column 3 (x:1210-1315). -/
def chi3 (s : S) (c : C) (v : B4) : S × C :=
  let r0 := com4 s.a13
  let t := s.a23
  let r0 := and4 r0 t
  let c := { c with c3 := eor4 c.c3 r0 }
  let s := { s with a03 := c.c3 }
  let r0 := com4 t
  let r0 := and4 r0 c.c3
  let t := s.a13
  let t := eor4 t r0
  let r0 := com4 c.c3
  let r0 := and4 r0 t
  let r0 := eor4 r0 s.a23
  let c := { c with c1 := eor4 c.c1 (up r0) }
  let s := { s with a21 := up r0 }
  let s := { s with a23 := up v }
  let c := { c with c3 := eor4 c.c3 (up v) }
  let t := left1 t
  let s := { s with a13 := t }
  let c := { c with c3 := eor4 c.c3 t }
  (s, c)

/-- `Xoodoo_RoundConstants_12` and what follows (x:362-377). -/
def constants : Bytes :=
  [0x58, 0x00, 0x38, 0x00, 0xC0, 0x03, 0xD0, 0x00, 0x20, 0x01, 0x14, 0x00, 0x60, 0x00, 0x2C, 0x00, 0x80, 0x03, 0xF0, 0x00, 0xA0, 0x01, 0x12, 0x00, 0xFF, 0]

/-- The body of `Xoodoo_RoundLoop` (x:547-1315), with the offset of `Z` in the constants. -/
def round (s : S) (c : C) (z : Nat) : Option (S × C × Nat) := do
  let (s, c) := theta s c
  let k0 ← constants[z]?
  let z := z + 1
  let k1 ← constants[z]?
  let z := z + 1
  let c := iota k0 k1 c
  let (s, c) := chi0 s c
  let (s, c) := chi2 s c
  let (s, c, v) := chi1 s c
  let (s, c) := chi3 s c v
  some (s, c, z)

/-- `Xoodoo_RoundLoop` (x:547-1321): `lpm r0, Z`, `inc r0`, `breq`. -/
def roundLoop : Nat → S → C → Nat → Option S
  | 0, _, _, _ => none
  | fuel + 1, s, c, z => do
    let (s, c, z) ← round s c z
    let r0 ← constants[z]?
    if r0 + 1 = 0 then some s else roundLoop fuel s c z

/-- `Xoodoo_Permute` (x:441-1341) with `Z` at offset `z` of the constants. -/
def permute (s : S) (z : Nat) : Option S := roundLoop 256 s (prepare s) z

/-- `Xoodoo_Permute_Nrounds` (x:410-417): the pointer is computed from the lower byte of the number of rounds, shifted in 8 bits.  An address before the constants gives `none`. -/
def permuteNrounds (s : S) (nrounds : BitVec 16) : Option S :=
  let r26 : Byte := nrounds.setWidth 8
  let r26 := r26 <<< 1
  if r26.toNat ≤ 24 then permute s (24 - r26.toNat) else none

/-- `Xoodoo_Permute_6rounds` (x:426-429). -/
def permute6 (s : S) : Option S := permute s 12

/-- `Xoodoo_Permute_12rounds` (x:438-440). -/
def permute12 (s : S) : Option S := permute s 0

/-- Four bytes of a state of 48 bytes. -/
def row (s : Bytes) (i : Nat) : B4 := ⟨s.getD (4 * i) 0, s.getD (4 * i + 1) 0, s.getD (4 * i + 2) 0, s.getD (4 * i + 3) 0⟩

/-- The state in the memory (x:389-400). -/
def ofBytes (s : Bytes) : S :=
  ⟨row s 0, row s 1, row s 2, row s 3, row s 4, row s 5, row s 6, row s 7, row s 8, row s 9, row s 10, row s 11⟩

/-- The 48 bytes of the state. -/
def bytes (s : S) : Bytes :=
  [s.a00, s.a01, s.a02, s.a03, s.a10, s.a11, s.a12, s.a13, s.a20, s.a21, s.a22, s.a23].flatMap fun r => [r.b0, r.b1, r.b2, r.b3]

end Avr8.Xoodoo
