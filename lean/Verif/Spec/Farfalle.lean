import Verif.Spec.FIPS202
import Verif.Spec.KeccakP
import Verif.Spec.Xoodoo

/-!
# Farfalle, Kravatte and Xoofff

Transcribed from "Farfalle: parallel permutation-based cryptography" (ToSC 2017/4, Algorithm 1), from the definition of
Kravatte (Achouffe) in the same paper and on keccak.team, and from "The design of Xoodoo and Xoofff" (ToSC 2018/4,
Algorithms 2 and 3).  Everything is on bit strings; nothing here refers to the model of the code.
-/

namespace Spec.Farfalle

/-- The parameters of Farfalle: the width `b`, four permutations and two rolling functions. -/
structure Par where
  b : Nat
  pb : Bits → Bits
  pc : Bits → Bits
  pd : Bits → Bits
  pe : Bits → Bits
  rollc : Bits → Bits
  rolle : Bits → Bits

variable (P : Par)

/-- `M || 10*`: a bit 1 and the smallest number of bits 0 that make the length a multiple of `b`. -/
def pad (b : Nat) (M : Bits) : Bits := M ++ true :: List.replicate ((b - (M.length + 1) % b) % b) false

/-- Mask derivation: `k = p_b(K || 10*)`. -/
def mask (K : Bits) : Bits := P.pb (pad P.b K)

/-- Adding `p_c(m_i + roll_c^i(k))` to `x` for the blocks `m_I, m_{I+1}, ...`. -/
def accumulate (k : Bits) : Bits → Nat → List Bits → Bits
  | x, _, [] => x
  | x, I, m :: ms => accumulate k (xorBits x (P.pc (xorBits m (Nat.repeat P.rollc I k)))) (I + 1) ms

/-- Compression of one input string: the accumulator and the index of the next mask.  One mask is skipped after each
string. -/
def compressOne (k : Bits) (st : Bits × Nat) (M : Bits) : Bits × Nat :=
  let ms := blocks P.b (pad P.b M)
  (accumulate P k st.1 st.2 ms, st.2 + ms.length + 1)

/-- Compression of a sequence of input strings. -/
def compress (k : Bits) (Ms : List Bits) : Bits × Nat :=
  Ms.foldl (compressOne P k) (List.replicate P.b false, 0)

/-- The output block `z_j = p_e(roll_e^j(y)) + k'`. -/
def outBlock (k' y : Bits) (j : Nat) : Bits := xorBits (P.pe (Nat.repeat P.rolle j y)) k'

/-- Bits `q .. q + n - 1` of the concatenation of the output blocks. -/
def stream (k' y : Bits) (q n : Nat) : Bits :=
  (List.range n).map fun t => (outBlock P k' y ((q + t) / P.b)).getD ((q + t) % P.b) false

/-- Bits `q .. q + n - 1` of the output for the sequence of strings `Ms` under the mask `k`. -/
def output (k : Bits) (Ms : List Bits) (q n : Nat) : Bits :=
  let c := compress P k Ms
  stream P (Nat.repeat P.rollc c.2 k) (P.pd c.1) q n

/-- Farfalle: `n` bits from offset `q`, with key `K` and input `M^(m-1) o ... o M^(0)` (`Ms = [M^(0), M^(1), ...]`). -/
def farfalle (K : Bits) (Ms : List Bits) (q n : Nat) : Bits := output P (mask P K) Ms q n

/-- The variant without `p_d` (Short-Kravatte, Xoofffie). -/
def Par.short : Par := { P with pd := id }

/-! ## An object with incremental calls

What the documentation in Kravatte.h and Xoofff.h says of an object: it remembers the complete input strings, the part of
the current string given so far, and how many bits of output were given since the last string. -/

/-- What an object is doing. -/
inductive Mode
  | input
  | output (short : Bool) (pos : Nat)
  | finished

/-- An object: the mask `k`, the complete strings, the current string, the mode. -/
structure Obj where
  k : Bits
  done : List Bits
  cur : Bits
  mode : Mode

/-- An object for the key `K`. -/
def Obj.start (K : Bits) : Obj := ⟨mask P K, [], [], .input⟩

/-- A piece `M` of an input string; `init` forgets all input, `last` completes the string.  A piece that is not the last
must have a whole number of bytes.  The first component is 0 for success and 1 for failure. -/
def Obj.compress (S : Obj) (M : Bits) (init last : Bool) : Nat × Obj :=
  if last = false ∧ M.length % 8 ≠ 0 then (1, S)
  else
    let done := if init then [] else S.done
    let cur := (if init then [] else S.cur) ++ M
    (0, if last then { S with done := done ++ [cur], cur := [], mode := .input }
        else { S with done := done, cur := cur, mode := .input })

/-- The next `n` bits of output, `short` selecting the variant without `p_d` when the output starts, `last` ending the output.
A piece that is not the last must have a whole number of bytes.  Output is refused while a string is incomplete, but this is
only noticed if its length is not a multiple of `b`; `none` means that the result is not specified. -/
def Obj.expand (S : Obj) (n : Nat) (last short : Bool) : Option (Nat × Obj × Bits) :=
  let emit (short : Bool) (pos : Nat) : Nat × Obj × Bits :=
    (0, { S with mode := if last then .finished else .output short (pos + n) },
      output (if short then P.short else P) S.k S.done pos n)
  if last = false ∧ n % 8 ≠ 0 then some (1, S, [])
  else match S.mode with
    | .finished => some (1, S, [])
    | .output short pos => some (emit short pos)
    | .input =>
      if S.cur.length % P.b ≠ 0 then some (1, S, [])
      else if S.cur = [] then some (emit short 0)
      else none

/-- A call. -/
inductive Op
  | compress (M : Bits) (init last : Bool)
  | expand (n : Nat) (last short : Bool)

/-- The return code, the object and the output of a call. -/
def Obj.step (S : Obj) : Op → Option (Nat × Obj × Bits)
  | .compress M init last => some ((S.compress M init last).1, (S.compress M init last).2, [])
  | .expand n last short => S.expand P n last short

/-- A sequence of calls: the object at the end, and the return codes and outputs. -/
def Obj.run : Obj → List Op → Option (Obj × List (Nat × Bits))
  | S, [] => some (S, [])
  | S, op :: ops =>
    match S.step P op with
    | none => none
    | some (c, S, o) =>
      match Obj.run S ops with
      | none => none
      | some (S, os) => some (S, (c, o) :: os)

end Spec.Farfalle

namespace Spec.Kravatte

open Spec.KeccakP

/-- `roll_c`: on the five lanes with `y = 4`: `(x0, ..., x4) -> (x1, x2, x3, x4, x0 <<< 7 + x1 + x1 >> 3)`. -/
def rollc (A : StateArray) : StateArray := fun x y z =>
  if y = 4 then
    if x = 4 then A 0 4 (z - 7) ^^ A 1 4 z ^^ (if h : z.val + 3 < 64 then A 1 4 ⟨z.val + 3, h⟩ else false)
    else A (x + 1) 4 z
  else A x y z

/-- `roll_e`: on the ten lanes with `y = 3` and `y = 4`:
`(x0, ..., x9) -> (x1, ..., x9, x0 <<< 7 + x1 <<< 18 + x2 (x1 >> 1))`. -/
def rolle (A : StateArray) : StateArray := fun x y z =>
  if y = 3 then if x = 4 then A 0 4 z else A (x + 1) 3 z
  else if y = 4 then
    if x = 4 then
      A 0 3 (z - 7) ^^ A 1 3 (z - 18) ^^ (A 2 3 z && (if h : z.val + 1 < 64 then A 1 3 ⟨z.val + 1, h⟩ else false))
    else A (x + 1) 4 z
  else A x y z

/-- A transformation of the state array as a transformation of bit strings. -/
def onBits (f : StateArray → StateArray) (S : Bits) : Bits := KeccakP.toString (f (toArray S))

/-- Kravatte: Farfalle with Keccak-p[1600, 6] for the four permutations. -/
def par : Farfalle.Par where
  b := 1600
  pb := keccakP 6
  pc := keccakP 6
  pd := keccakP 6
  pe := keccakP 6
  rollc := onBits rollc
  rolle := onBits rolle

end Spec.Kravatte

namespace Spec.Xoofff

open Spec.Xoodoo

/-- Lane `x = 0` of plane 0 replaced by `l`, then the planes moved: `B = A0 <<< (3, 0)`, `A0 = A1`, `A1 = A2`, `A2 = B`. -/
def rollPlanes (A : StateArray) (l : Fin 32 → Bool) : StateArray :=
  let A0 : Plane := fun x z => if x = 0 then l z else A x 0 z
  ofPlanes (plane A 1) (plane A 2) (shift 3 0 A0)

/-- `roll_Xc`: `A0,0 = A0,0 + (A0,0 << 13) + (A1,0 <<< 3)`, then the planes are moved. -/
def rollc (A : StateArray) : StateArray :=
  rollPlanes A fun z => A 0 0 z ^^ (if h : 13 ≤ z.val then A 0 0 ⟨z.val - 13, by omega⟩ else false) ^^ A 0 1 (z - 3)

/-- `roll_Xe`: `A0,0 = A1,0 . A2,0 + (A0,0 <<< 5) + (A1,0 <<< 13) + 0x00000007`, then the planes are moved. -/
def rolle (A : StateArray) : StateArray :=
  rollPlanes A fun z => (A 0 1 z && A 0 2 z) ^^ A 0 0 (z - 5) ^^ A 0 1 (z - 13) ^^ decide (z.val < 3)

/-- A transformation of the state array as a transformation of bit strings. -/
def onBits (f : StateArray → StateArray) (S : Bits) : Bits := Xoodoo.toString (f (toArray S))

/-- Xoofff: Farfalle with Xoodoo[6] for the four permutations. -/
def par : Farfalle.Par where
  b := 384
  pb := xoodoo 6
  pc := xoodoo 6
  pd := xoodoo 6
  pe := xoodoo 6
  rollc := onBits rollc
  rolle := onBits rolle

end Spec.Xoofff
