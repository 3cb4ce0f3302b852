import Verif.Base.Bytes

/-!
# Lane complementing, and blocks with a trailing word

Some implementations of Keccak-p[1600] store the lanes 1, 2, 8, 12, 17 and 20 of the state complemented.
-/

namespace Spec

/-- The state that 200 bytes in memory stand for. -/
def laneComplement (s : Bytes) : Bytes := s.mapIdx fun j b => if j / 8 ∈ [1, 2, 8, 12, 17, 20] then ~~~ b else b

/-- The first `q` blocks of `n` bytes, with the bytes `t` after each. -/
def withTrailer (n : Nat) (t : Bytes) : Nat → Bytes → Bytes
  | 0, _ => []
  | q + 1, d => d.take n ++ t ++ withTrailer n t q (d.drop n)

end Spec
