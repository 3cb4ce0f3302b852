import Verif.Model.K12Rust
import Mathlib.Data.Int.Bitwise

/-!
# The standalone implementations of FIPS 202 in Python

Models `Standalone/CompactFIPS202/Python/CompactFIPS202.py` (namespace `Plain`) and `CompactFIPS202_numpy.py` (namespace
`Numpy`).  The sponge and the six functions are the same text in the two files and are modelled once, for a permutation `f`.

* Integers are unbounded (`Int`).  `>>` is the division by a power of two rounded down, `%` by a positive number is the
  remainder that is not negative, `~a` is `-a-1`, and `^` and `&` are those of the infinite two's complement representation.
* A `bytearray` is a list of bytes.  Storing a number outside of 0..255 raises an exception, and so does an index out of range;
  an index from `-len` to -1 counts from the end.  `none` is an exception or a loop that does not end within the fuel.
* The function `Keccak` returns `None` for wrong parameters: `some none`.
* `inputBytes` is a `bytes` or `bytearray` object and the other arguments are integers.
-/

namespace Py202

open KeccakP1600 (Lane loopM)
open K12Rust (mapUpTo)

/-- `a >> n`. -/
def shr (a : Int) (n : Nat) : Int := a / 2 ^ n

/-- `a << n`. -/
def shl (a : Int) (n : Nat) : Int := a * 2 ^ n

/-! ## The permutation of CompactFIPS202.py -/

namespace Plain

/-- `ROL64` (CompactFIPS202.py:11-12). -/
def rol64 (a : Int) (n : Nat) : Int := (shr a (64 - n % 64) + shl a (n % 64)) % shl 1 64

/-- A list of five lists of five lanes: `lanes[x][y]`. -/
abbrev PyLanes := List (List Int)

/-- `lanes[x][y]`. -/
def get (lanes : PyLanes) (x y : Nat) : Option Int := (lanes[x]?).bind fun r => r[y]?

/-- `lanes[x][y] = v`. -/
def put (lanes : PyLanes) (x y : Nat) (v : Int) : Option PyLanes :=
  (lanes[x]?).bind fun r => if y < r.length then some (lanes.set x (r.set y v)) else none

/-- θ: `C` (CompactFIPS202.py:18). -/
def thetaC (lanes : PyLanes) : Option (List Int) :=
  mapUpTo (fun x => do
    let a0 ← get lanes x 0
    let a1 ← get lanes x 1
    let a2 ← get lanes x 2
    let a3 ← get lanes x 3
    let a4 ← get lanes x 4
    some ((((a0.xor a1).xor a2).xor a3).xor a4)) 5

/-- θ: `D` (CompactFIPS202.py:19). -/
def thetaD (C : List Int) : Option (List Int) :=
  mapUpTo (fun x => do
    let a ← C[(x + 4) % 5]?
    let b ← C[(x + 1) % 5]?
    some (a.xor (rol64 b 1))) 5

/-- θ: the new lists (CompactFIPS202.py:20). -/
def thetaAdd (lanes : PyLanes) (D : List Int) : Option PyLanes :=
  mapUpTo (fun x => mapUpTo (fun y => do
    let a ← get lanes x y
    let d ← D[x]?
    some (a.xor d)) 5) 5

/-- The variables of the loop of ρ and π. -/
structure Walk where
  lanes : PyLanes
  x : Nat
  y : Nat
  current : Int

/-- ρ and π, the body of the loop (CompactFIPS202.py:25-26): the right-hand sides are evaluated before the assignments. -/
def rhoPiStep (t : Nat) (w : Walk) : Option Walk := do
  let x := w.y
  let y := (2 * w.x + 3 * w.y) % 5
  let a ← get w.lanes x y
  let lanes ← put w.lanes x y (rol64 w.current ((t + 1) * (t + 2) / 2))
  some ⟨lanes, x, y, a⟩

/-- ρ and π (CompactFIPS202.py:22-26). -/
def rhoPi (lanes : PyLanes) : Option PyLanes := do
  let current ← get lanes 1 0
  let w ← loopM rhoPiStep 0 24 ⟨lanes, 1, 0, current⟩
  some w.lanes

/-- χ on one plane: `T` (CompactFIPS202.py:29). -/
def chiT (lanes : PyLanes) (y : Nat) : Option (List Int) := mapUpTo (fun x => get lanes x y) 5

/-- χ on one plane: the new lanes (CompactFIPS202.py:30-31). -/
def chiWrite (T : List Int) (y : Nat) (lanes : PyLanes) : Option PyLanes :=
  loopM (fun x lanes => do
    let a ← T[x]?
    let b ← T[(x + 1) % 5]?
    let c ← T[(x + 2) % 5]?
    put lanes x y (a.xor ((b.lnot).land c))) 0 5 lanes

/-- χ (CompactFIPS202.py:28-31). -/
def chi (lanes : PyLanes) : Option PyLanes :=
  loopM (fun y lanes => (chiT lanes y).bind fun T => chiWrite T y lanes) 0 5 lanes

/-- The LFSR (CompactFIPS202.py:34). -/
def lfsr (R : Int) : Int := ((shl R 1).xor (shr R 7 * 0x71)) % 256

/-- ι (CompactFIPS202.py:33-36): the lanes and `R`. -/
def iota (st : PyLanes × Int) : Option (PyLanes × Int) :=
  loopM (fun j (st : PyLanes × Int) =>
    let R := lfsr st.2
    if R.land 2 ≠ 0 then do
      let a ← get st.1 0 0
      let lanes ← put st.1 0 0 (a.xor (shl 1 (2 ^ j - 1)))
      some (lanes, R)
    else some (st.1, R)) 0 7 st

/-- One round (CompactFIPS202.py:16-36). -/
def round (st : PyLanes × Int) : Option (PyLanes × Int) := do
  let C ← thetaC st.1
  let D ← thetaD C
  let lanes ← thetaAdd st.1 D
  let lanes ← rhoPi lanes
  let lanes ← chi lanes
  iota (lanes, st.2)

/-- `KeccakF1600onLanes` (CompactFIPS202.py:14-37). -/
def onLanes (lanes : PyLanes) : Option PyLanes := (loopM (fun _ st => round st) 0 24 (lanes, 1)).map (·.1)

/-- `load64` (CompactFIPS202.py:39-40). -/
def load64 (b : Bytes) : Option Int := loopM (fun i a => (b[i]?).map fun v => a + shl v.toNat (8 * i)) 0 8 0

/-- `store64` (CompactFIPS202.py:42-43). -/
def store64 (a : Int) : List Int := (List.range 8).map fun i => shr a (8 * i) % 256

/-- `state[p:p+n] = l` for a `bytearray`: the numbers must be bytes. -/
def putSlice (s : Bytes) (p n : Nat) (l : List Int) : Option Bytes :=
  if ∀ v ∈ l, 0 ≤ v ∧ v < 256 then some (s.take p ++ l.map (BitVec.ofInt 8) ++ s.drop (p + n)) else none

/-- `KeccakF1600`, the conversion to lanes (CompactFIPS202.py:46). -/
def load (s : Bytes) : Option PyLanes :=
  mapUpTo (fun x => mapUpTo (fun y => load64 (Bytes.slice s (8 * (x + 5 * y)) 8)) 5) 5

/-- `KeccakF1600`, the conversion to bytes (CompactFIPS202.py:48-51). -/
def store (lanes : PyLanes) : Option Bytes :=
  loopM (fun x s => loopM (fun y s => (get lanes x y).bind fun a => putSlice s (8 * (x + 5 * y)) 8 (store64 a)) 0 5 s) 0 5
    (List.replicate 200 0)

/-- `KeccakF1600` (CompactFIPS202.py:45-52). -/
def permute (s : Bytes) : Option Bytes := do
  let lanes ← load s
  let lanes ← onLanes lanes
  store lanes

end Plain

/-! ## The permutation of CompactFIPS202_numpy.py -/

namespace Numpy

/-- An array of shape (5, 5) of `uint64`. -/
abbrev Arr := Fin 5 → Fin 5 → Lane

/-- A table of five numbers from 0 to 4. -/
def tab (l : List (Fin 5)) (i : Fin 5) : Fin 5 := l.getD i.val 0

/-- `THETA_REORDER[0]` (CompactFIPS202_numpy.py:17). -/
def thetaReorder0 : Fin 5 → Fin 5 := tab [4, 0, 1, 2, 3]

/-- `THETA_REORDER[1]` (CompactFIPS202_numpy.py:17). -/
def thetaReorder1 : Fin 5 → Fin 5 := tab [1, 2, 3, 4, 0]

/-- `IOTA_CONSTANTS` (CompactFIPS202_numpy.py:20-28). -/
def iotaConstants : List Lane :=
  [0x0000000000000001, 0x0000000000008082, 0x800000000000808A,
   0x8000000080008000, 0x000000000000808B, 0x0000000080000001,
   0x8000000080008081, 0x8000000000008009, 0x000000000000008A,
   0x0000000000000088, 0x0000000080008009, 0x000000008000000A,
   0x000000008000808B, 0x800000000000008B, 0x8000000000008089,
   0x8000000000008003, 0x8000000000008002, 0x8000000000000080,
   0x000000000000800A, 0x800000008000000A, 0x8000000080008081,
   0x8000000000008080, 0x0000000080000001, 0x8000000080008008]

/-- `RHO_SHIFTS` (CompactFIPS202_numpy.py:31-35). -/
def rhoShifts (x y : Fin 5) : Nat :=
  ([[0, 36, 3, 41, 18],
    [1, 44, 10, 45, 2],
    [62, 6, 43, 15, 61],
    [28, 55, 25, 21, 56],
    [27, 20, 39, 8, 14]].getD x.val []).getD y.val 0

/-- `CHI_REORDER[0]` (CompactFIPS202_numpy.py:38). -/
def chiReorder0 : Fin 5 → Fin 5 := tab [1, 2, 3, 4, 0]

/-- `CHI_REORDER[1]` (CompactFIPS202_numpy.py:38). -/
def chiReorder1 : Fin 5 → Fin 5 := tab [2, 3, 4, 0, 1]

/-- `PI_ROW_REORDER` (CompactFIPS202_numpy.py:41-45). -/
def piRow (x y : Fin 5) : Fin 5 :=
  tab ([[0, 3, 1, 4, 2],
        [1, 4, 2, 0, 3],
        [2, 0, 3, 1, 4],
        [3, 1, 4, 2, 0],
        [4, 2, 0, 3, 1]].getD x.val []) y

/-- `PI_COLUMN_REORDER` (CompactFIPS202_numpy.py:48-52). -/
def piColumn (x y : Fin 5) : Fin 5 :=
  tab ([[0, 0, 0, 0, 0],
        [1, 1, 1, 1, 1],
        [2, 2, 2, 2, 2],
        [3, 3, 3, 3, 3],
        [4, 4, 4, 4, 4]].getD x.val []) y

/-- `np.frombuffer(state, dtype=np.uint64, count=25).reshape([5, 5], order='F')` (CompactFIPS202_numpy.py:56) on a
little-endian platform: element (x, y) is word x + 5y.  The copy is not shared. -/
def frombuffer (s : Bytes) : Option Arr :=
  if s.length < 200 then none else some fun x y => KeccakP1600.wordOfBytes (Bytes.slice s (8 * (x.val + 5 * y.val)) 8)

/-- `np.bitwise_xor.reduce(a[idx, ], 1, keepdims=True)`, row `x`. -/
def reduce (a : Arr) (idx : Fin 5 → Fin 5) (x : Fin 5) : Lane :=
  a (idx x) 0 ^^^ a (idx x) 1 ^^^ a (idx x) 2 ^^^ a (idx x) 3 ^^^ a (idx x) 4

/-- theta_step (CompactFIPS202_numpy.py:60-61). -/
def theta (a : Arr) : Arr :=
  let shifted : Arr := fun x y => (a x y <<< 1) ||| (a x y >>> 63)
  fun x y => a x y ^^^ (reduce a thetaReorder0 x ^^^ reduce shifted thetaReorder1 x)

/-- rho_step (CompactFIPS202_numpy.py:65).  A shift by 64 gives zero in numpy. -/
def rho (a : Arr) : Arr := fun x y => (a x y <<< rhoShifts x y) ||| (a x y >>> (64 - rhoShifts x y))

/-- pi_step (CompactFIPS202_numpy.py:69). -/
def pi (a : Arr) : Arr := fun x y => a (piRow x y) (piColumn x y)

/-- chi_step (CompactFIPS202_numpy.py:73): the right-hand side is evaluated before the assignment. -/
def chi (a : Arr) : Arr := fun x y => a x y ^^^ (~~~ a (chiReorder0 x) y &&& a (chiReorder1 x) y)

/-- iota_step (CompactFIPS202_numpy.py:77). -/
def iota (a : Arr) (round : Nat) : Option Arr :=
  (iotaConstants[round]?).map fun c x y => if x = 0 ∧ y = 0 then a 0 0 ^^^ c else a x y

/-- `state.tobytes(order='F')` (CompactFIPS202_numpy.py:79). -/
def tobytes (a : Arr) : Bytes :=
  (List.range 25).flatMap fun i => KeccakP1600.bytesOfWord (a (Fin.ofNat 5 (i % 5)) (Fin.ofNat 5 (i / 5)))

/-- `KeccakF1600` (CompactFIPS202_numpy.py:55-79). -/
def permute (s : Bytes) : Option Bytes := do
  let a ← frombuffer s
  let a ← loopM (fun i a => iota (chi (pi (rho (theta a)))) i) 0 24 a
  some (tobytes a)

end Numpy

/-! ## The sponge -/

/-- The position an index stands for in an array of `n` elements. -/
def index (n : Nat) (i : Int) : Option Nat :=
  if 0 ≤ i ∧ i < n then some i.toNat else if i < 0 ∧ -(n : Int) ≤ i then some (i + n).toNat else none

/-- `b[i]`. -/
def getB (b : Bytes) (i : Int) : Option Byte := (index b.length i).bind fun k => b[k]?

/-- `b[i] = v`. -/
def putB (b : Bytes) (i v : Int) : Option Bytes :=
  (index b.length i).bind fun k => if 0 ≤ v ∧ v < 256 then some (b.set k (BitVec.ofInt 8 v)) else none

/-- `state[i] = state[i] ^ v`. -/
def xorB (s : Bytes) (i v : Int) : Option Bytes := (getB s i).bind fun a => putB s i (Int.xor (a.toNat : Int) v)

/-- `state[0:n]`: a negative `n` counts from the end. -/
def upTo (s : Bytes) (n : Int) : Bytes := if 0 ≤ n then s.take n.toNat else s.take (n + s.length).toNat

/-- The permutation if `c`, otherwise nothing. -/
def permuteIf (f : Bytes → Option Bytes) (c : Bool) (s : Bytes) : Option Bytes := if c then f s else some s

/-- The absorbing loop (CompactFIPS202.py:63-70, CompactFIPS202_numpy.py:90-97): the state and `blockSize`. -/
def absorb (f : Bytes → Option Bytes) (R : Int) (input : Bytes) : Nat → Bytes → (off blockSize : Int) → Option (Bytes × Int)
  | 0, _, _, _ => none
  | fuel + 1, s, off, blockSize =>
    if off < input.length then do
      let b := min (input.length - off) R
      let s ← loopM (fun i s => (getB input (i + off)).bind fun v => xorB s i (v.toNat : Int)) 0 b.toNat s
      let s ← permuteIf f (b = R) s
      absorb f R input fuel s (off + b) (if b = R then 0 else b)
    else some (s, blockSize)

/-- The padding (CompactFIPS202.py:72-76, CompactFIPS202_numpy.py:99-103). -/
def pad (f : Bytes → Option Bytes) (R suffix : Int) (s : Bytes) (b : Int) : Option Bytes := do
  let s ← xorB s b suffix
  let s ← permuteIf f (suffix.land 0x80 ≠ 0 ∧ b = R - 1) s
  let s ← xorB s (R - 1) 0x80
  f s

/-- The squeezing loop (CompactFIPS202.py:78-83, CompactFIPS202_numpy.py:105-110). -/
def squeeze (f : Bytes → Option Bytes) (R : Int) : Nat → Bytes → (out : Bytes) → (len : Int) → Option Bytes
  | 0, _, _, _ => none
  | fuel + 1, s, out, len =>
    if len > 0 then do
      let b := min len R
      let s' ← permuteIf f (len - b > 0) s
      squeeze f R fuel s' (out ++ upTo s b) (len - b)
    else some out

/-- `Keccak` (CompactFIPS202.py:54-84, CompactFIPS202_numpy.py:81-111), with fuel for the loops. -/
def keccak (f : Bytes → Option Bytes) (fuel : Nat) (rate capacity : Int) (input : Bytes) (suffix outLen : Int) :
    Option (Option Bytes) :=
  if rate + capacity ≠ 1600 ∨ rate % 8 ≠ 0 then some none
  else do
    let R := rate / 8
    let a ← absorb f R input fuel (List.replicate 200 0) 0 0
    let s ← pad f R suffix a.1 a.2
    let o ← squeeze f R fuel s [] outLen
    some (some o)

/-- `SHAKE128` (CompactFIPS202.py:86-87, CompactFIPS202_numpy.py:113-114). -/
def shake128 (f : Bytes → Option Bytes) (fuel : Nat) (input : Bytes) (outLen : Int) := keccak f fuel 1344 256 input 0x1F outLen

/-- `SHAKE256` (CompactFIPS202.py:89-90, CompactFIPS202_numpy.py:116-117). -/
def shake256 (f : Bytes → Option Bytes) (fuel : Nat) (input : Bytes) (outLen : Int) := keccak f fuel 1088 512 input 0x1F outLen

/-- `SHA3_224` (CompactFIPS202.py:92-93, CompactFIPS202_numpy.py:119-120). -/
def sha3_224 (f : Bytes → Option Bytes) (fuel : Nat) (input : Bytes) := keccak f fuel 1152 448 input 0x06 (224 / 8)

/-- `SHA3_256` (CompactFIPS202.py:95-96, CompactFIPS202_numpy.py:122-123). -/
def sha3_256 (f : Bytes → Option Bytes) (fuel : Nat) (input : Bytes) := keccak f fuel 1088 512 input 0x06 (256 / 8)

/-- `SHA3_384` (CompactFIPS202.py:98-99, CompactFIPS202_numpy.py:125-126). -/
def sha3_384 (f : Bytes → Option Bytes) (fuel : Nat) (input : Bytes) := keccak f fuel 832 768 input 0x06 (384 / 8)

/-- `SHA3_512` (CompactFIPS202.py:101-102, CompactFIPS202_numpy.py:128-129). -/
def sha3_512 (f : Bytes → Option Bytes) (fuel : Nat) (input : Bytes) := keccak f fuel 576 1024 input 0x06 (512 / 8)

end Py202
