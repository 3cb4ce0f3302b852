import Verif.Base.Bits

/-!
# The Xoodoo permutation

Transcribed from "The design of Xoodoo and Xoofff" (ToSC 2018/4), Algorithm 1 and Table of round constants: the state is
an array of bits `A[x, y, z]` with 4 columns `x`, 3 planes `y` and 32 bits `z` per lane.  Nothing here refers to the
model of the code.  Index arithmetic is modulo 4, 3 and 32 (arithmetic of `Fin`).
-/

namespace Spec.Xoodoo

/-- The state: plane `y`, column `x`, bit `z`. -/
abbrev StateArray := Fin 4 → Fin 3 → Fin 32 → Bool

/-- A plane. -/
abbrev Plane := Fin 4 → Fin 32 → Bool

/-- `A <<< (t, v)`: the cyclic shift moving the bit in `(x, z)` to position `(x + t, z + v)`. -/
def shift (t : Fin 4) (v : Fin 32) (P : Plane) : Plane := fun x z => P (x - t) (z - v)

/-- θ: `P = A0 + A1 + A2`, `E = P <<< (1, 5) + P <<< (1, 14)`, `Ay = Ay + E`. -/
def theta (A : StateArray) : StateArray :=
  let P : Plane := fun x z => A x 0 z ^^ A x 1 z ^^ A x 2 z
  let E : Plane := fun x z => shift 1 5 P x z ^^ shift 1 14 P x z
  fun x y z => A x y z ^^ E x z

/-- A state from its three planes. -/
def ofPlanes (P0 P1 P2 : Plane) : StateArray := fun x y z =>
  if y = 0 then P0 x z else if y = 1 then P1 x z else P2 x z

/-- Plane `y` of a state. -/
def plane (A : StateArray) (y : Fin 3) : Plane := fun x z => A x y z

/-- ρ_west: `A1 = A1 <<< (1, 0)`, `A2 = A2 <<< (0, 11)`. -/
def rhoWest (A : StateArray) : StateArray :=
  ofPlanes (plane A 0) (shift 1 0 (plane A 1)) (shift 0 11 (plane A 2))

/-- `t^n mod 1 + t + t^3` as a number of 3 bits: multiplication by `t` iterated. -/
def tpow : Nat → Nat
  | 0 => 1
  | n + 1 =>
    let v := 2 * tpow n
    if v < 8 then v else Nat.xor v 11

/-- The round constant of round `i = k - 11`, for `k = 0..11`: with `q_i(t) = t^i mod 1 + t + t^3` and
`s_i = 3^i mod 7`, the bits of the lane `x = 0` of `C_i` are the coefficients of `t^(s_i) (q_i(t) + t^3)`.
As `t` has order 7 and 3 has order 6 modulo 7, the exponents `i` are replaced by `i + 14` and `i + 12`. -/
def roundConstant (k : Nat) : Nat := (tpow (k + 3) + 8) * 2 ^ (3 ^ (k + 1) % 7)

/-- ι: `A0 = A0 + C_i`. -/
def iota (k : Nat) (A : StateArray) : StateArray := fun x y z =>
  if x = 0 ∧ y = 0 then A x y z ^^ (roundConstant k).testBit z.val else A x y z

/-- χ: `B0 = ~A1 . A2`, `B1 = ~A2 . A0`, `B2 = ~A0 . A1`, `Ay = Ay + By`. -/
def chi (A : StateArray) : StateArray := fun x y z => A x y z ^^ ((A x (y + 1) z ^^ true) && A x (y + 2) z)

/-- ρ_east: `A1 = A1 <<< (0, 1)`, `A2 = A2 <<< (2, 8)`. -/
def rhoEast (A : StateArray) : StateArray :=
  ofPlanes (plane A 0) (shift 0 1 (plane A 1)) (shift 2 8 (plane A 2))

/-- One round, with the constant of round `k - 11`. -/
def round (A : StateArray) (k : Nat) : StateArray := rhoEast (chi (iota k (rhoWest (theta A))))

/-- Xoodoo with `nr` rounds: rounds `1 - nr .. 0`. -/
def rounds (nr : Nat) (A : StateArray) : StateArray := (List.range' (12 - nr) nr).foldl round A

/-- The state array of a bit string: bit `z + 32 (x + 4 y)` is `A[x, y, z]`. -/
def toArray (S : Bits) : StateArray := fun x y z => S.getD (32 * (4 * y.val + x.val) + z.val) false

/-- The bit string of a state array. -/
def toString (A : StateArray) : Bits :=
  (List.finRange 3).flatMap fun y => (List.finRange 4).flatMap fun x => (List.finRange 32).map (A x y)

/-- Xoodoo[nr] on bit strings of length 384. -/
def xoodoo (nr : Nat) (S : Bits) : Bits := toString (rounds nr (toArray S))

end Spec.Xoodoo
