import Verif.Base.Bytes

/-!
Bit strings and their byte representation (FIPS 202, appendix B.1: within a byte, bit 0 is the least
significant bit).
-/

/-- A bit string. -/
abbrev Bits := List Bool

namespace Bits

/-- The eight bits of a byte, least significant first. -/
def ofByte (b : Byte) : Bits := (List.range 8).map b.getLsbD

/-- The bit string represented by a byte string. -/
def ofBytes (s : Bytes) : Bits := s.flatMap ofByte

/-- The number whose binary expansion (least significant bit first) is the given string. -/
def toNat : Bits → Nat
  | [] => 0
  | b :: l => b.toNat + 2 * toNat l

/-- The byte `d` is the delimited form of the bit string `l` (KeccakSponge-documentation.h:61-72): the bits
of `l` are in the least significant positions, followed by a bit 1, followed by zeros. -/
def DelimitedBy (l : Bits) (d : Byte) : Prop :=
  l.length ≤ 7 ∧ d.toNat = toNat l + 2 ^ l.length

instance (l d) : Decidable (DelimitedBy l d) := inferInstanceAs (Decidable (_ ∧ _))

end Bits
