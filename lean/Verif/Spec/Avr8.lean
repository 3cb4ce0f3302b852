import Verif.Base.Bytes

/-!
# Buffers in a memory with addresses of 16 bits

What the functions on bytes are to do, for states and data in one memory.
-/

namespace Spec.Avr8

/-- `n` bytes from address `a` are in the data memory, beyond the registers and the I/O space. -/
def In (a : BitVec 16) (n : Nat) : Prop := 0x60 ≤ a.toNat ∧ a.toNat + n ≤ 2 ^ 16

/-- `n` bytes from `p` may be read while `n` bytes from `d` are written in ascending order: the buffers are disjoint, or `p` is not before `d`. -/
def Ahead (p d : BitVec 16) (n : Nat) : Prop := d.toNat ≤ p.toNat ∨ p.toNat + n ≤ d.toNat

/-- The `n` bytes from address `a`. -/
def bytesAt (m : BitVec 16 → Byte) (a : BitVec 16) (n : Nat) : Bytes := (List.range n).map fun i => m (a + BitVec.ofNat 16 i)

/-- The memory with the bytes `vs` from address `d`, and everything else as in `m`. -/
def written (m : BitVec 16 → Byte) (d : BitVec 16) (vs : Bytes) : BitVec 16 → Byte := fun a =>
  if d.toNat ≤ a.toNat ∧ a.toNat < d.toNat + vs.length then vs.getD (a.toNat - d.toNat) 0 else m a

end Spec.Avr8
