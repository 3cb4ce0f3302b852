import Verif.Model.KeccakP1600
import Verif.Model.Relaned

/-!
# The standalone compact implementations of FIPS 202

Models the C files of `Standalone/CompactFIPS202/C`: `Keccak-readable-and-compact.c` (namespace `Readable`),
`Keccak-more-compact.c` (namespace `More`), `TweetableFIPS202.c` (namespace `Tweet`) and
`TweetableFIPS202-stub.c` (namespace `Stub`).  These programs do not use the rest of the library: each has its own
permutation, sponge and FIPS 202 functions.

* The first two keep the state as 200 bytes and access the lanes with `load64`, `store64` and `xor64`.  When
  `LITTLE_ENDIAN` is defined, the first one uses pointer casts instead, which on a little-endian platform is the
  same map; the model uses the explicit functions.  The third one keeps 25 words.
* Every access to the state, the message and the output is checked against the bounds of the array: `none` means
  undefined behaviour (an access out of bounds, a rotation by 64 - 0) or a loop that does not end.
* `unsigned int` is 32 bits wide, `unsigned long long` 64 bits, `unsigned char` 8 bits.
* The output is a buffer: the functions take its contents and return the new contents.
* `genKAT.c` and `Keccak-compact-test.c` (test programs) are not modelled.
-/

namespace Compact202

open KeccakP1600 (Lane loopFrom put loopM)

/-! ## Accesses -/

/-- `load64(x)` with `x = s + p` (Keccak-readable-and-compact.c:136-146, Keccak-more-compact.c:16): the loop visits
`x[7]`, ..., `x[0]`. -/
def load64 (s : Bytes) (p : Nat) : Option Lane :=
  loopM (fun k u => (s[p + (7 - k)]?).map fun b => (u <<< 8) ||| b.setWidth 64) 0 8 0

/-- `store64(x, u)` with `x = s + p` (Keccak-readable-and-compact.c:151-159, Keccak-more-compact.c:17). -/
def store64 (s : Bytes) (p : Nat) (u : Lane) : Option Bytes :=
  (loopM (fun i (st : Bytes × Lane) =>
    if p + i < st.1.length then some (st.1.set (p + i) (st.2.setWidth 8), st.2 >>> 8) else none) 0 8 (s, u)).map (·.1)

/-- `xor64(x, u)` with `x = s + p` (Keccak-readable-and-compact.c:164-172, Keccak-more-compact.c:18). -/
def xor64 (s : Bytes) (p : Nat) (u : Lane) : Option Bytes :=
  (loopM (fun i (st : Bytes × Lane) =>
    (st.1[p + i]?).map fun b => (st.1.set (p + i) (b ^^^ st.2.setWidth 8), st.2 >>> 8)) 0 8 (s, u)).map (·.1)

/-- `readLane(x, y)`, `rL(x,y)` (Keccak-readable-and-compact.c:182-192, Keccak-more-compact.c:19). -/
def readLane (s : Bytes) (x y : Nat) : Option Lane := load64 s (8 * (x + 5 * y))

/-- `writeLane(x, y, lane)`, `wL(x,y,l)` (Keccak-readable-and-compact.c:182-192, Keccak-more-compact.c:20). -/
def writeLane (s : Bytes) (x y : Nat) (l : Lane) : Option Bytes := store64 s (8 * (x + 5 * y)) l

/-- `XORLane(x, y, lane)`, `XL(x,y,l)` (Keccak-readable-and-compact.c:182-192, Keccak-more-compact.c:21). -/
def xorLane (s : Bytes) (x y : Nat) (l : Lane) : Option Bytes := xor64 s (8 * (x + 5 * y)) l

/-- `ROL64(a, offset)`, `ROL(a,o)`, `R(a, n)` (Keccak-readable-and-compact.c:181, Keccak-more-compact.c:15,
TweetableFIPS202.c:1): the right shift by `64 - offset` is undefined for `offset = 0`, the left shift for
`offset > 63`. -/
def rol (a : Lane) (offset : Nat) : Option Lane :=
  if 0 < offset ∧ offset < 64 then some ((a <<< offset) ^^^ (a >>> (64 - offset))) else none

/-- A local array `C[5]`, `temp[5]` or `B[5]`; the indices used are `x < 5` and `(x+k)%5`. -/
abbrev Five := Fin 5 → Lane

/-- Index of such an array. -/
def i5 (x : Nat) : Fin 5 := Fin.ofNat 5 x

/-! ## The permutation on bytes -/

/-- Theta, first loop: `C[x]` (Keccak-readable-and-compact.c:222-223, Keccak-more-compact.c:26). -/
def thetaC (s : Bytes) : Option Five :=
  loopM (fun x C => do
    let a0 ← readLane s x 0
    let a1 ← readLane s x 1
    let a2 ← readLane s x 2
    let a3 ← readLane s x 3
    let a4 ← readLane s x 4
    some (put C (i5 x) (a0 ^^^ a1 ^^^ a2 ^^^ a3 ^^^ a4))) 0 5 (fun _ => 0)

/-- Theta, second loop (Keccak-readable-and-compact.c:224-230, Keccak-more-compact.c:26). -/
def thetaAdd (C : Five) (s : Bytes) : Option Bytes :=
  loopM (fun x s => do
    let r ← rol (C (i5 ((x + 1) % 5))) 1
    loopM (fun y s => xorLane s x y (C (i5 ((x + 4) % 5)) ^^^ r)) 0 5 s) 0 5 s

/-- Theta (Keccak-readable-and-compact.c:218-231, Keccak-more-compact.c:26). -/
def theta (s : Bytes) : Option Bytes := (thetaC s).bind fun C => thetaAdd C s

/-- Chi on one plane: the copy of the plane (Keccak-readable-and-compact.c:255-256, Keccak-more-compact.c:28). -/
def chiCopy (s : Bytes) (y : Nat) : Option Five :=
  loopM (fun x T => (readLane s x y).map fun a => put T (i5 x) a) 0 5 (fun _ => 0)

/-- Chi on one plane: the new lanes (Keccak-readable-and-compact.c:258-259, Keccak-more-compact.c:28). -/
def chiWrite (T : Five) (y : Nat) (s : Bytes) : Option Bytes :=
  loopM (fun x s => writeLane s x y (T (i5 x) ^^^ (~~~ T (i5 ((x + 1) % 5)) &&& T (i5 ((x + 2) % 5))))) 0 5 s

/-- Chi (Keccak-readable-and-compact.c:251-261, Keccak-more-compact.c:28). -/
def chi (s : Bytes) : Option Bytes :=
  loopM (fun y s => (chiCopy s y).bind fun T => chiWrite T y s) 0 5 s

/-- The local variables of the loop of rho and pi. -/
structure Walk (σ : Type) where
  s : σ
  x : Nat
  y : Nat
  /-- The accumulated rotation (not used in `Readable`). -/
  r : Nat
  /-- The lane in transit. -/
  cur : Lane

/-! ### Keccak-readable-and-compact.c -/

namespace Readable

/-- `LFSR86540` (Keccak-readable-and-compact.c:198-207): the result and the new LFSR state. -/
def lfsr86540 (LFSR : Byte) : Bool × Byte :=
  ((LFSR &&& 0x01) != 0, if (LFSR &&& 0x80) != 0 then (LFSR <<< 1) ^^^ 0x71 else LFSR <<< 1)

/-- Rho and pi, the body of the loop (Keccak-readable-and-compact.c:240-247). -/
def rhoPiStep (t : Nat) (w : Walk Bytes) : Option (Walk Bytes) := do
  let r := ((t + 1) * (t + 2) / 2) % 64
  let Y := (2 * w.x + 3 * w.y) % 5
  let x := w.y
  let y := Y
  let temp ← readLane w.s x y
  let v ← rol w.cur r
  let s ← writeLane w.s x y v
  some ⟨s, x, y, 0, temp⟩

/-- Rho and pi (Keccak-readable-and-compact.c:233-249). -/
def rhoPi (s : Bytes) : Option Bytes := do
  let current ← readLane s 1 0
  let w ← loopM rhoPiStep 0 24 ⟨s, 1, 0, 0, current⟩
  some w.s

/-- Iota (Keccak-readable-and-compact.c:263-269): the state and the LFSR state; `1<<j` as `2^j`. -/
def iota (st : Bytes × Byte) : Option (Bytes × Byte) :=
  loopM (fun j (st : Bytes × Byte) =>
    let r := lfsr86540 st.2
    if r.1 then (xorLane st.1 0 0 ((1 : Lane) <<< (2 ^ j - 1))).map fun s => (s, r.2) else some (st.1, r.2)) 0 7 st

/-- The body of the loop over the rounds (Keccak-readable-and-compact.c:217-270). -/
def round (st : Bytes × Byte) : Option (Bytes × Byte) := do
  let s ← theta st.1
  let s ← rhoPi s
  let s ← chi s
  iota (s, st.2)

/-- `KeccakF1600_StatePermute` (Keccak-readable-and-compact.c:212-271). -/
def permute (s : Bytes) : Option Bytes := (loopM (fun _ st => round st) 0 24 (s, 0x01)).map (·.1)

end Readable

/-! ### Keccak-more-compact.c -/

namespace More

/-- `LFSR86540` (Keccak-more-compact.c:14): the result and the new LFSR state; here the state is advanced first. -/
def lfsr86540 (R : Byte) : Bool × Byte :=
  let R := (R <<< 1) ^^^ (if (R &&& 0x80) ≠ 0 then 0x71 else 0)
  (((R &&& 2) >>> 1) != 0, R)

/-- Rho and pi, the body of the loop (Keccak-more-compact.c:27); `r` is an `unsigned int` that accumulates the
rotation. -/
def rhoPiStep (j : Nat) (w : Walk Bytes) : Option (Walk Bytes) := do
  let r := (w.r + (j + 1)) % 2 ^ 32
  let Y := (2 * w.x + 3 * w.y) % 5
  let x := w.y
  let y := Y
  let c0 ← readLane w.s x y
  let v ← rol w.cur (r % 64)
  let s ← writeLane w.s x y v
  some ⟨s, x, y, r, c0⟩

/-- Rho and pi (Keccak-more-compact.c:27). -/
def rhoPi (s : Bytes) : Option Bytes := do
  let D ← readLane s 1 0
  let w ← loopM rhoPiStep 0 24 ⟨s, 1, 0, 0, D⟩
  some w.s

/-- Iota (Keccak-more-compact.c:29). -/
def iota (st : Bytes × Byte) : Option (Bytes × Byte) :=
  loopM (fun j (st : Bytes × Byte) =>
    let r := lfsr86540 st.2
    if r.1 then (xorLane st.1 0 0 ((1 : Lane) <<< (2 ^ j - 1))).map fun s => (s, r.2) else some (st.1, r.2)) 0 7 st

/-- The body of the loop over the rounds (Keccak-more-compact.c:25-30). -/
def round (st : Bytes × Byte) : Option (Bytes × Byte) := do
  let s ← theta st.1
  let s ← rhoPi s
  let s ← chi s
  iota (s, st.2)

/-- `KeccakF1600` (Keccak-more-compact.c:22-31). -/
def permute (s : Bytes) : Option Bytes := (loopM (fun _ st => round st) 0 24 (s, 0x01)).map (·.1)

end More

/-! ## The sponge of the first two programs -/

/-- `s[p] ^= b`. -/
def xorByte (s : Bytes) (p : Nat) (b : Byte) : Option Bytes := (s[p]?).map fun a => s.set p (a ^^^ b)

/-- `for(i=0; i<n; i++) state[i] ^= input[i]` (Keccak-readable-and-compact.c:299-300, Keccak-more-compact.c:35), with
`input` advanced to `p`. -/
def xorInput (input : Bytes) (p n : Nat) (s : Bytes) : Option Bytes :=
  loopM (fun i s => (input[p + i]?).bind fun b => xorByte s i b) 0 n s

/-- `memcpy(output, state, n)` (Keccak-readable-and-compact.c:324), `FOR(i,b) out[i]=s[i]` (Keccak-more-compact.c:37),
with `output` advanced to `p`. -/
def copyOut (s : Bytes) (n : Nat) (output : Bytes) (p : Nat) : Option Bytes :=
  loopM (fun i o => (s[i]?).bind fun b => if p + i < o.length then some (o.set (p + i) b) else none) 0 n output

/-- The permutation if `c`, otherwise nothing. -/
def permuteIf (f : Bytes → Option Bytes) (c : Bool) (s : Bytes) : Option Bytes := if c then f s else some s

/-- The absorbing loop (Keccak-readable-and-compact.c:297-308, Keccak-more-compact.c:35) for the permutation `f`; `p` is
how far `input` has been advanced, `len` what remains; returns the state and `blockSize`.  `none` if the fuel does not
suffice. -/
def absorb (f : Bytes → Option Bytes) (R : Nat) (input : Bytes) : Nat → Bytes → (p len blockSize : Nat) →
    Option (Bytes × Nat)
  | 0, _, _, _, _ => none
  | fuel + 1, s, p, len, blockSize =>
    if len > 0 then do
      let b := if len < R then len else R
      let s ← xorInput input p b s
      let s ← permuteIf f (b = R) s
      absorb f R input fuel s (p + b) (len - b) (if b = R then 0 else b)
    else some (s, blockSize)

/-- Padding and switch to the squeezing phase (Keccak-readable-and-compact.c:312-319, Keccak-more-compact.c:36);
`rateInBytes-1` is computed as `unsigned int`. -/
def pad (f : Bytes → Option Bytes) (R : Nat) (suffix : Byte) (s : Bytes) (b : Nat) : Option Bytes := do
  let last := (R + 2 ^ 32 - 1) % 2 ^ 32
  let s ← xorByte s b suffix
  let s ← permuteIf f ((suffix &&& 0x80) ≠ 0 ∧ b = last) s
  let s ← xorByte s last 0x80
  f s

/-- The squeezing loop (Keccak-readable-and-compact.c:322-330, Keccak-more-compact.c:37); `p` is how far `output` has been
advanced.  `none` if the fuel does not suffice. -/
def squeeze (f : Bytes → Option Bytes) (R : Nat) : Nat → Bytes → (output : Bytes) → (p len : Nat) → Option Bytes
  | 0, _, _, _, _ => none
  | fuel + 1, s, output, p, len =>
    if len > 0 then do
      let b := if len < R then len else R
      let output ← copyOut s b output p
      let s ← permuteIf f (len - b > 0) s
      squeeze f R fuel s output (p + b) (len - b)
    else some output

/-- The sponge function with rate `R` bytes (Keccak-readable-and-compact.c:293-330, Keccak-more-compact.c:34-37).  Each
turn of a loop handles at least one byte if `R > 0`. -/
def sponge (f : Bytes → Option Bytes) (R : Nat) (input : Bytes) (inLen : Nat) (suffix : Byte) (output : Bytes)
    (outLen : Nat) : Option Bytes := do
  let a ← absorb f R input (inLen + 1) (List.replicate 200 0) 0 inLen 0
  let s ← pad f R suffix a.1 a.2
  squeeze f R (outLen + 1) s output 0 outLen

namespace Readable

/-- `Keccak` (Keccak-readable-and-compact.c:283-331): with wrong parameters the function returns without writing
anything. -/
def keccak (rate capacity : BitVec 32) (input : Bytes) (inputByteLen : BitVec 64) (delimitedSuffix : Byte)
    (output : Bytes) (outputByteLen : BitVec 64) : Option Bytes :=
  if rate + capacity ≠ 1600 ∨ rate % 8 ≠ 0 then some output
  else sponge permute (rate.toNat / 8) input inputByteLen.toNat delimitedSuffix output outputByteLen.toNat

/-- `FIPS202_SHAKE128` (Keccak-readable-and-compact.c:77-80): `inputByteLen` is an `unsigned int` and `outputByteLen` an
`int`; both are converted to `unsigned long long`. -/
def shake128 (input : Bytes) (inputByteLen : BitVec 32) (output : Bytes) (outputByteLen : BitVec 32) : Option Bytes :=
  keccak 1344 256 input (inputByteLen.setWidth 64) 0x1F output (outputByteLen.signExtend 64)

/-- `FIPS202_SHAKE256` (Keccak-readable-and-compact.c:85-88). -/
def shake256 (input : Bytes) (inputByteLen : BitVec 32) (output : Bytes) (outputByteLen : BitVec 32) : Option Bytes :=
  keccak 1088 512 input (inputByteLen.setWidth 64) 0x1F output (outputByteLen.signExtend 64)

/-- `FIPS202_SHA3_224` (Keccak-readable-and-compact.c:93-96). -/
def sha3_224 (input : Bytes) (inputByteLen : BitVec 32) (output : Bytes) : Option Bytes :=
  keccak 1152 448 input (inputByteLen.setWidth 64) 0x06 output 28

/-- `FIPS202_SHA3_256` (Keccak-readable-and-compact.c:101-104). -/
def sha3_256 (input : Bytes) (inputByteLen : BitVec 32) (output : Bytes) : Option Bytes :=
  keccak 1088 512 input (inputByteLen.setWidth 64) 0x06 output 32

/-- `FIPS202_SHA3_384` (Keccak-readable-and-compact.c:109-112). -/
def sha3_384 (input : Bytes) (inputByteLen : BitVec 32) (output : Bytes) : Option Bytes :=
  keccak 832 768 input (inputByteLen.setWidth 64) 0x06 output 48

/-- `FIPS202_SHA3_512` (Keccak-readable-and-compact.c:117-120). -/
def sha3_512 (input : Bytes) (inputByteLen : BitVec 32) (output : Bytes) : Option Bytes :=
  keccak 576 1024 input (inputByteLen.setWidth 64) 0x06 output 64

end Readable

namespace More

/-- `Keccak` (Keccak-more-compact.c:32-38): the capacity is not used and the parameters are not checked. -/
def keccak (r _c : BitVec 32) (input : Bytes) (inLen : BitVec 64) (sfx : Byte) (out : Bytes) (outLen : BitVec 64) :
    Option Bytes :=
  sponge permute (r.toNat / 8) input inLen.toNat sfx out outLen.toNat

/-- `FIPS202_SHAKE128` (Keccak-more-compact.c:7). -/
def shake128 (input : Bytes) (inLen : BitVec 64) (out : Bytes) (outLen : BitVec 64) : Option Bytes :=
  keccak 1344 256 input inLen 0x1F out outLen

/-- `FIPS202_SHAKE256` (Keccak-more-compact.c:8). -/
def shake256 (input : Bytes) (inLen : BitVec 64) (out : Bytes) (outLen : BitVec 64) : Option Bytes :=
  keccak 1088 512 input inLen 0x1F out outLen

/-- `FIPS202_SHA3_224` (Keccak-more-compact.c:9). -/
def sha3_224 (input : Bytes) (inLen : BitVec 64) (out : Bytes) : Option Bytes := keccak 1152 448 input inLen 0x06 out 28

/-- `FIPS202_SHA3_256` (Keccak-more-compact.c:10). -/
def sha3_256 (input : Bytes) (inLen : BitVec 64) (out : Bytes) : Option Bytes := keccak 1088 512 input inLen 0x06 out 32

/-- `FIPS202_SHA3_384` (Keccak-more-compact.c:11). -/
def sha3_384 (input : Bytes) (inLen : BitVec 64) (out : Bytes) : Option Bytes := keccak 832 768 input inLen 0x06 out 48

/-- `FIPS202_SHA3_512` (Keccak-more-compact.c:12). -/
def sha3_512 (input : Bytes) (inLen : BitVec 64) (out : Bytes) : Option Bytes := keccak 576 1024 input inLen 0x06 out 64

end More

/-! ## TweetableFIPS202.c -/

namespace Tweet

/-- `s[i] = v` on the array of words. -/
def wr (s : List Lane) (i : Nat) (v : Lane) : Option (List Lane) := if i < s.length then some (s.set i v) else none

/-- `s[i] ^= v`. -/
def xr (s : List Lane) (i : Nat) (v : Lane) : Option (List Lane) := (s[i]?).map fun a => s.set i (a ^^^ v)

/-- The column parities (TweetableFIPS202.c:32-37).  `B` is what the array holds before. -/
def thetaC (s : List Lane) (B : Five) : Option Five :=
  loopM (fun i B => loopM (fun j B => (s[i + 5 * j]?).map fun a => put B (i5 i) (B (i5 i) ^^^ a)) 0 5 (put B (i5 i) 0))
    0 5 B

/-- The theta effect (TweetableFIPS202.c:39-44). -/
def thetaAdd (B : Five) (s : List Lane) : Option (List Lane) :=
  loopM (fun i s => do
    let r ← rol (B (i5 ((i + 1) % 5))) 1
    loopM (fun j s => xr s (i + 5 * j) (B (i5 ((i + 4) % 5)) ^^^ r)) 0 5 s) 0 5 s

/-- Rho and pi, the body of the loop (TweetableFIPS202.c:49-58); `r`, `x` and `y` are `unsigned char`, `Y` is an
`unsigned long long`. -/
def rhoPiStep (j : Nat) (w : Walk (List Lane)) : Option (Walk (List Lane)) := do
  let r := (w.r + (j + 1)) % 2 ^ 8
  let Y := 2 * w.x + 3 * w.y
  let x := w.y
  let y := Y % 5
  let Y ← w.s[x + 5 * y]?
  let v ← rol w.cur (r % 64)
  let s ← wr w.s (x + 5 * y) v
  some ⟨s, x, y, r, Y⟩

/-- Rho and pi (TweetableFIPS202.c:46-58). -/
def rhoPi (s : List Lane) : Option (List Lane) := do
  let t ← s[1]?
  let w ← loopM rhoPiStep 0 24 ⟨s, 1, 0, 0, t⟩
  some w.s

/-- Chi on one plane: the copy (TweetableFIPS202.c:62-63).  `B` is what the array holds before. -/
def chiCopy (s : List Lane) (j : Nat) (B : Five) : Option Five :=
  loopM (fun i B => (s[i + 5 * j]?).map fun a => put B (i5 i) a) 0 5 B

/-- Chi on one plane: the new lanes (TweetableFIPS202.c:64-65). -/
def chiWrite (B : Five) (j : Nat) (s : List Lane) : Option (List Lane) :=
  loopM (fun i s => wr s (i + 5 * j) (B (i5 i) ^^^ (~~~ B (i5 ((i + 1) % 5)) &&& B (i5 ((i + 2) % 5))))) 0 5 s

/-- Chi (TweetableFIPS202.c:60-66): the state and the array `B`. -/
def chi (st : List Lane × Five) : Option (List Lane × Five) :=
  loopM (fun j (st : List Lane × Five) => do
    let B ← chiCopy st.1 j st.2
    let s ← chiWrite B j st.1
    some (s, B)) 0 5 st

/-- The LFSR (TweetableFIPS202.c:69): the new state, computed as `int` and stored in an `unsigned char`. -/
def lfsr (R : Byte) : Byte :=
  (((R.setWidth 32 : BitVec 32) <<< 1) ^^^ (113 * ((R.setWidth 32 : BitVec 32) >>> 7))).setWidth 8

/-- Iota (TweetableFIPS202.c:68-70). -/
def iota (st : List Lane × Byte) : Option (List Lane × Byte) :=
  loopM (fun j (st : List Lane × Byte) =>
    let R := lfsr st.2
    if (R &&& 2) ≠ 0 then (xr st.1 0 ((1 : Lane) <<< (2 ^ j - 1))).map fun s => (s, R) else some (st.1, R)) 0 7 st

/-- The body of the loop over the rounds (TweetableFIPS202.c:30-71): the state, the array `B`, which is shared by the rounds,
and the LFSR state. -/
def round (st : List Lane × Five × Byte) : Option (List Lane × Five × Byte) := do
  let B ← thetaC st.1 st.2.1
  let s ← thetaAdd B st.1
  let s ← rhoPi s
  let c ← chi (s, B)
  let r ← iota (c.1, st.2.2)
  some (r.1, c.2, r.2)

/-- `F` (TweetableFIPS202.c:25-72).  `B` is not initialised; the model takes zeros. -/
def permute (s : List Lane) : Option (List Lane) := (loopM (fun _ st => round st) 0 24 (s, fun _ => 0, 1)).map (·.1)

/-- `S(x)` (TweetableFIPS202.c:4-6), with the pointer advanced to `p`. -/
def addBlock (r : Nat) (x : Bytes) (p : Nat) (s : List Lane) : Option (List Lane) :=
  loopM (fun i s => (x[p + i]?).bind fun b => xr s (i / 8) (b.setWidth 64 <<< (i % 8 * 8))) 0 r s

/-- `while (n >= r)` (TweetableFIPS202.c:79-85): the state, how far `m` has been advanced, and the new `n`.  `none` if the
fuel does not suffice. -/
def absorb (r : Nat) (m : Bytes) : Nat → List Lane → (p n : Nat) → Option (List Lane × Nat × Nat)
  | 0, _, _, _ => none
  | fuel + 1, s, p, n =>
    if n ≥ r then do
      let s ← addBlock r m p s
      let s ← permute s
      absorb r m fuel s (p + r) (n - r)
    else some (s, p, n)

/-- `t[i] = b`. -/
def setByte (t : Bytes) (i : Nat) (b : Byte) : Option Bytes := if i < t.length then some (t.set i b) else none

/-- `t[r-1]` (TweetableFIPS202.c:90); `r-1` is an `int`, negative for `r = 0`. -/
def lastByte (t : Bytes) (r : Nat) : Option Byte := if r = 0 then none else t[r - 1]?

/-- The last block (TweetableFIPS202.c:77, 87-90). -/
def lastBlock (r : Nat) (m : Bytes) (p n : Nat) (sfx : Byte) : Option Bytes := do
  let t ← loopM (fun i t => (m[p + i]?).bind fun b => setByte t i b) 0 n (List.replicate 200 0)
  let t ← setByte t n sfx
  let a ← lastByte t r
  setByte t (r - 1) (a ||| 128)

/-- `if(0 == i % r) F(s)` (TweetableFIPS202.c:95-96). -/
def permuteAt (r i : Nat) (s : List Lane) : Option (List Lane) := if i % r = 0 then permute s else some s

/-- The squeezing loop (TweetableFIPS202.c:93-98): the state and the output buffer. -/
def squeeze (r : Nat) (d : Nat) (s : List Lane) (h : Bytes) : Option (List Lane × Bytes) :=
  loopM (fun i (st : List Lane × Bytes) => do
    let s ← permuteAt r i st.1
    let a ← s[i % r / 8]?
    let h ← setByte st.2 i ((a >>> (8 * (i % 8))).setWidth 8)
    some (s, h)) 0 d (s, h)

/-- `k` (TweetableFIPS202.c:74-99); `r` and `p` are `unsigned char`, `n` and `d` `unsigned long long`. -/
def k (r : Byte) (m : Bytes) (n : BitVec 64) (p : Byte) (h : Bytes) (d : BitVec 64) : Option Bytes := do
  let a ← absorb r.toNat m (n.toNat + 1) (List.replicate 25 0) 0 n.toNat
  let t ← lastBlock r.toNat m a.2.1 a.2.2 p
  let s ← addBlock r.toNat t 0 a.1
  let o ← squeeze r.toNat d.toNat s h
  some o.2

/-- `crypto_hash_sha3224` (TweetableFIPS202.c:8-13, 101): the output buffer (the function returns 0). -/
def sha3_224 (h m : Bytes) (n : BitVec 64) : Option Bytes := k (BitVec.ofNat 8 (18 * 8)) m n 6 h 28

/-- `crypto_hash_sha3256` (TweetableFIPS202.c:8-13, 102). -/
def sha3_256 (h m : Bytes) (n : BitVec 64) : Option Bytes := k (BitVec.ofNat 8 (17 * 8)) m n 6 h 32

/-- `crypto_hash_sha3384` (TweetableFIPS202.c:8-13, 103). -/
def sha3_384 (h m : Bytes) (n : BitVec 64) : Option Bytes := k (BitVec.ofNat 8 (13 * 8)) m n 6 h 48

/-- `crypto_hash_sha3512` (TweetableFIPS202.c:8-13, 104). -/
def sha3_512 (h m : Bytes) (n : BitVec 64) : Option Bytes := k (BitVec.ofNat 8 (9 * 8)) m n 6 h 64

/-- `crypto_hash_shake128` (TweetableFIPS202.c:15-20, 105). -/
def shake128 (h : Bytes) (d : BitVec 64) (m : Bytes) (n : BitVec 64) : Option Bytes :=
  k (BitVec.ofNat 8 (21 * 8)) m n 31 h d

/-- `crypto_hash_shake256` (TweetableFIPS202.c:15-20, 106). -/
def shake256 (h : Bytes) (d : BitVec 64) (m : Bytes) (n : BitVec 64) : Option Bytes :=
  k (BitVec.ofNat 8 (17 * 8)) m n 31 h d

end Tweet

namespace Stub

/-- `Keccak` (TweetableFIPS202-stub.c:16-41), compiled with `DEBUG` (otherwise the file is not valid C: the last `else`
has no statement).  A failing `assert` is `none`. -/
def keccak (rate capacity : BitVec 32) (input : Bytes) (inputByteLen : BitVec 64) (delimitedSuffix : Byte)
    (output : Bytes) (outputByteLen : BitVec 64) : Option Bytes :=
  if rate = 1344 ∧ capacity = 256 ∧ delimitedSuffix = 0x1F then
    Tweet.shake128 output outputByteLen input inputByteLen
  else if rate = 1088 ∧ capacity = 512 ∧ delimitedSuffix = 0x1F then
    Tweet.shake256 output outputByteLen input inputByteLen
  else if rate = 1152 ∧ capacity = 448 ∧ delimitedSuffix = 0x06 ∧ outputByteLen = 28 then
    Tweet.sha3_224 output input inputByteLen
  else if rate = 1088 ∧ capacity = 512 ∧ delimitedSuffix = 0x06 ∧ outputByteLen = 32 then
    Tweet.sha3_256 output input inputByteLen
  else if rate = 832 ∧ capacity = 768 ∧ delimitedSuffix = 0x06 ∧ outputByteLen = 48 then
    Tweet.sha3_384 output input inputByteLen
  else if rate = 576 ∧ capacity = 1024 ∧ delimitedSuffix = 0x06 ∧ outputByteLen = 64 then
    Tweet.sha3_512 output input inputByteLen
  else none

end Stub
end Compact202
