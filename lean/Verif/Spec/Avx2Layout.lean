import Verif.Model.KeccakP1600

/-!
# The state of the AVX2 implementation

The 25 lanes of Keccak-p[1600] are not in the usual order in memory: the order is that of the members of the structure
`KeccakP1600_AVX2_state` in `lib/low/KeccakP-1600/AVX2/KeccakP-1600-SnP.h:33-40`.  A lane is named after its row (b, g, k, m, s) and its column
(a, e, i, o, u).
-/

namespace Avx2Layout

/-- The number of the lane in column `x` and row `y`. -/
def laneAt (x y : Nat) : Nat := 5 * y + x

/-- The members of the structure (AVX2/KeccakP-1600-SnP.h:34-39): `Aba, Abe, ...`. -/
def fields : List Nat :=
  let (a, e, i, o, u) := (0, 1, 2, 3, 4)
  let (b, g, k, m, s) := (0, 1, 2, 3, 4)
  [laneAt a b, laneAt e b, laneAt i b, laneAt o b, laneAt u b,
   laneAt a k, laneAt a s, laneAt a g, laneAt a m,
   laneAt e m, laneAt i g, laneAt o s, laneAt u k,
   laneAt e k, laneAt i s, laneAt o g, laneAt u m,
   laneAt e s, laneAt i m, laneAt o k, laneAt u g,
   laneAt e g, laneAt i k, laneAt o m, laneAt u s]

/-- The place of a lane in the structure. -/
def place (lane : Nat) : Nat := fields.idxOf lane

/-- The bytes of the state in the usual order: byte `j` is byte `j % 8` of lane `j / 8`. -/
def view (st : Bytes) : Bytes := (List.range 200).map fun j => st.getD (8 * place (j / 8) + j % 8) 0

/-- The structure in memory for a state in the usual order. -/
def lay (s : Bytes) : Bytes := (List.range 200).map fun j => s.getD (8 * fields.getD (j / 8) 0 + j % 8) 0

end Avx2Layout
