import Verif.Model.CompactFIPS202

/-!
# The standalone KangarooTwelve in Rust

Models `Standalone/KangarooTwelve/Rust/k12.rs`.  A panic (index out of range, overflow of `usize` in a debug build, a `Vec`
of more than `isize::MAX` bytes) is `none`.  `usize` is 64 bits wide.  The `unsafe` casts of `read_u64` and `write_u64`,
followed by `to_le`, are modelled by their meaning, the little-endian word of the eight bytes; `read_u64` reads through a
`*const u64` a byte array whose alignment is not that of a `u64`, which Rust does not allow: alignment is not modelled.
-/

namespace K12Rust

open KeccakP1600 (Lane loopFrom put loopM)
open Compact202 (Five i5)

/-- `RC` (k12.rs:70-83). -/
def RC : List Lane :=
  [0x000000008000808b, 0x800000000000008b, 0x8000000000008089, 0x8000000000008003, 0x8000000000008002, 0x8000000000000080,
   0x000000000000800a, 0x800000008000000a, 0x8000000080008081, 0x8000000000008080, 0x0000000080000001, 0x8000000080008008]

/-- `RHO` (k12.rs:86-89). -/
def RHO : List Nat :=
  [1, 3, 6, 10, 15, 21, 28, 36, 45, 55, 2, 14, 27, 41, 56, 8, 25, 43, 62, 18, 39, 61, 20, 44]

/-- `PI` (k12.rs:90-93). -/
def PI : List Nat :=
  [10, 7, 11, 17, 18, 3, 5, 16, 8, 21, 24, 4, 15, 23, 19, 13, 12, 2, 20, 14, 22, 9, 6, 1]

/-- `a[i] = v`. -/
def wr {α : Type} (a : List α) (i : Nat) (v : α) : Option (List α) := if i < a.length then some (a.set i v) else none

/-- `a[i] ^= v` for an array of words. -/
def xr (a : List Lane) (i : Nat) (v : Lane) : Option (List Lane) := (a[i]?).bind fun w => wr a i (w ^^^ v)

/-- `FOR5!(v, s, e)` (k12.rs:60-69): `e` for `v` = 0, s, 2s, 3s and 4s. -/
def for5 {σ : Type} (s : Nat) (e : Nat → σ → Option σ) (st : σ) : Option σ := loopM (fun i st => e (i * s) st) 0 5 st

/-- θ, the column parities (k12.rs:101-103).  `C` has five words; the code only uses indices below 5. -/
def thetaC (lanes : List Lane) (C : Five) : Option Five :=
  for5 1 (fun x C => do
    let a ← lanes[x]?
    let b ← lanes[x + 5]?
    let c ← lanes[x + 10]?
    let d ← lanes[x + 15]?
    let e ← lanes[x + 20]?
    some (put C (i5 x) (a ^^^ b ^^^ c ^^^ d ^^^ e))) C

/-- θ, the addition of the parities (k12.rs:105-109). -/
def thetaAdd (C : Five) (lanes : List Lane) : Option (List Lane) :=
  for5 1 (fun x lanes => for5 5 (fun y lanes =>
    xr lanes (x + y) (C (i5 ((x + 4) % 5)) ^^^ (C (i5 ((x + 1) % 5))).rotateLeft 1)) lanes) lanes

/-- The first argument of `REPEAT24!` (k12.rs:115-116): the lanes and `C[0]`. -/
def rhoPiStep (x : Nat) (lanes : List Lane) (a : Lane) : Option (List Lane × Lane) := do
  let p ← PI[x]?
  let c ← lanes[p]?
  let r ← RHO[x]?
  let lanes ← wr lanes p (a.rotateLeft r)
  some (lanes, c)

/-- ρ and π (k12.rs:112-120, with `REPEAT24!` of k12.rs:50-58): 23 times both arguments, then the first one. -/
def rhoPi (lanes : List Lane) : Option (List Lane) := do
  let a ← lanes[1]?
  let st ← loopM (fun x (st : List Lane × Lane) => rhoPiStep x st.1 st.2) 0 23 (lanes, a)
  let st ← rhoPiStep 23 st.1 st.2
  some st.1

/-- χ on the plane that starts at `y`, the copy (k12.rs:124-126). -/
def chiCopy (lanes : List Lane) (y : Nat) (C : Five) : Option Five :=
  for5 1 (fun x C => (lanes[x + y]?).map fun a => put C (i5 x) a) C

/-- χ on the plane that starts at `y`, the result (k12.rs:127-129). -/
def chiWrite (C : Five) (y : Nat) (lanes : List Lane) : Option (List Lane) :=
  for5 1 (fun x lanes => wr lanes (x + y) (C (i5 x) ^^^ (~~~ C (i5 ((x + 1) % 5)) &&& C (i5 ((x + 2) % 5))))) lanes

/-- χ (k12.rs:123-130).  What `C` holds on entry does not matter. -/
def chi (lanes : List Lane) (C : Five) : Option (List Lane) :=
  for5 5 (fun y lanes => (chiCopy lanes y C).bind fun C => chiWrite C y lanes) lanes

/-- ι (k12.rs:133). -/
def iota (lanes : List Lane) (round : Nat) : Option (List Lane) := (RC[round]?).bind fun c => xr lanes 0 c

/-- One round (k12.rs:99-134). -/
def round (round : Nat) (lanes : List Lane) : Option (List Lane) := do
  let C ← thetaC lanes (fun _ => 0)
  let lanes ← thetaAdd C lanes
  let lanes ← rhoPi lanes
  let lanes ← chi lanes C
  iota lanes round

/-- `KeccakP1600onLanes` (k12.rs:95-135). -/
def onLanes (lanes : List Lane) : Option (List Lane) := loopM round 0 12 lanes

/-- `read_u64` (k12.rs:137-139). -/
def readU64 (b : Bytes) : Lane := KeccakP1600.wordOfBytes b

/-- `write_u64` (k12.rs:140-142). -/
def writeU64 (w : Lane) : Bytes := KeccakP1600.bytesOfWord w

/-- `array_ref!(state, i, 8)` (k12.rs:22-36). -/
def arrayRef (s : Bytes) (i : Nat) : Option Bytes := if i + 8 ≤ s.length then some (Bytes.slice s i 8) else none

/-- `KeccakP1600`, the conversion to lanes (k12.rs:145-151). -/
def load (s : Bytes) : Option (List Lane) :=
  loopM (fun x lanes => for5 5 (fun y lanes => (arrayRef s (8 * (x + y))).bind fun b => wr lanes (x + y) (readU64 b)) lanes)
    0 5 (List.replicate 25 0)

/-- `state[i..i+n].copy_from_slice(b)`: the lengths must agree. -/
def copyFrom (s : Bytes) (i n : Nat) (b : Bytes) : Option Bytes :=
  if i + n ≤ s.length ∧ b.length = n then some (Bytes.setAt s i b) else none

/-- `KeccakP1600`, the conversion to bytes (k12.rs:153-158). -/
def store (lanes : List Lane) (s : Bytes) : Option Bytes :=
  loopM (fun x s => for5 5 (fun y s => (lanes[x + y]?).bind fun w => copyFrom s (8 * (x + y)) 8 (writeU64 w)) s) 0 5 s

/-- `KeccakP1600` (k12.rs:144-159). -/
def permute (s : Bytes) : Option Bytes := do
  let lanes ← load s
  let lanes ← onLanes lanes
  store lanes s

/-- `rateInBytes` (k12.rs:163). -/
def rateInBytes : Nat := 1344 / 8

/-- `state[i] ^= b`. -/
def xorByte (s : Bytes) (i : Nat) (b : Byte) : Option Bytes := (s[i]?).bind fun a => wr s i (a ^^^ b)

/-- `F`, the loop over a further block (k12.rs:174-177). -/
def xorBlock (input : Bytes) (off n : Nat) (s : Bytes) : Option Bytes :=
  loopM (fun i s => (input[i + off]?).bind fun b => xorByte s i b) 0 n s

/-- `F`, the `while` loop (k12.rs:171-179): the state and `blockSize`.  `none` if the fuel does not suffice. -/
def absorb (input : Bytes) : Nat → Bytes → (off blockSize : Nat) → Option (Bytes × Nat)
  | 0, _, _, _ => none
  | fuel + 1, s, off, blockSize =>
    if off < input.length then do
      let s ← permute s
      let b := min (input.length - off) rateInBytes
      let s ← xorBlock input off b s
      absorb input fuel s (off + b) b
    else some (s, blockSize)

/-- The permutation if `c`, otherwise nothing. -/
def permuteIf (c : Bool) (s : Bytes) : Option Bytes := if c then permute s else some s

/-- `F`, the squeezing loop (k12.rs:199-206).  `none` if the fuel does not suffice. -/
def squeeze : Nat → Bytes → (out : Bytes) → (len : Nat) → Option Bytes
  | 0, _, _, _ => none
  | fuel + 1, s, out, len =>
    if len > 0 then do
      let b := min len rateInBytes
      let out := out ++ s.take b
      let s ← permuteIf (len - b > 0) s
      squeeze fuel s out (len - b)
    else some out

/-- The size limit of a `Vec<u8>`. -/
def vec (n : Nat) : Option Unit := if n < 2 ^ 63 then some () else none

/-- `F` (k12.rs:161-208). -/
def F (input : Bytes) (delimitedSuffix : Byte) (outputByteLen : Nat) : Option Bytes := do
  let b := min input.length rateInBytes
  let s ← copyFrom (List.replicate 200 0) 0 b (input.take b)
  let st ← absorb input (input.length + 1) s b b
  let s ← permuteIf (st.2 = rateInBytes) st.1
  let b := if st.2 = rateInBytes then 0 else st.2
  let s ← xorByte s b delimitedSuffix
  let s ← permuteIf ((delimitedSuffix &&& 0x80) ≠ 0 ∧ b = rateInBytes - 1) s
  let s ← xorByte s (rateInBytes - 1) 0x80
  let s ← permute s
  vec outputByteLen
  squeeze (outputByteLen + 1) s [] outputByteLen

/-- The loop of `right_encode` (k12.rs:212-215). -/
def digits (x : Nat) : Bytes := if x = 0 then [] else BitVec.ofNat 8 (x % 256) :: digits (x / 256)
termination_by x

/-- `right_encode` (k12.rs:210-220). -/
def rightEncode (x : Nat) : Bytes :=
  let S := (digits x).reverse
  S ++ [BitVec.ofNat 8 S.length]

/-- `usize` arithmetic. -/
def usize (n : Nat) : Option Nat := if n < 2 ^ 64 then some n else none

/-- `B` (k12.rs:225). -/
def B : Nat := 8192

/-- Chunk `i` (k12.rs:237-238). -/
def chunk (S : Bytes) (i : Nat) : Option Bytes := do
  let e ← usize ((i + 1) * B)
  let ub := min e S.length
  if i * B ≤ ub then some (Bytes.slice S (i * B) (ub - i * B)) else none

/-- `f` for 0, 1, ..., n-1, in this order. -/
def mapUpTo {α : Type} (f : Nat → Option α) : Nat → Option (List α)
  | 0 => some []
  | n + 1 => do
    let l ← mapUpTo f n
    let a ← f n
    some (l ++ [a])

/-- The tree with several chunks (k12.rs:245-261). -/
def tree (Si : List Bytes) (n : Nat) (outputByteLen : Nat) : Option Bytes := do
  let CVi ← mapUpTo (fun i => (Si[i + 1]?).bind fun s => F s 0x0B (256 / 8)) (n - 1)
  let S0 ← Si[0]?
  let cvs ← mapUpTo (fun i => CVi[i]?) (n - 1)
  let node := S0 ++ [3, 0, 0, 0, 0, 0, 0, 0] ++ cvs.flatten ++ rightEncode (n - 1) ++ [0xFF, 0xFF]
  vec node.length
  F node 0x06 outputByteLen

/-- `KangarooTwelve` (k12.rs:222-263).  The evaluation of `n-1` for `n = 0`, which would overflow, does not happen, because
`S` is not empty. -/
def kangarooTwelve (M C : Bytes) (outputByteLen : Nat) : Option Bytes := do
  let S := M ++ C ++ rightEncode C.length
  vec S.length
  let t ← usize (S.length + B)
  let n := (t - 1) / B
  let Si ← mapUpTo (chunk S) n
  if n = 1 then (Si[0]?).bind fun s => F s 0x07 outputByteLen
  else if n = 0 then none
  else tree Si n outputByteLen

end K12Rust
