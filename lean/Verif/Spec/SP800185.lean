import Verif.Spec.FIPS202

/-!
# NIST SP 800-185: cSHAKE, KMAC, TupleHash, ParallelHash

Transcribed from SP 800-185 sections 2.3 and 3-6.  Everything is on bit strings; nothing here refers to the
model of the code.  `f` stands for KECCAK-p[1600, 24].
-/

namespace Spec

/-- The digits of `x` in base 256, most significant first, at least one digit. -/
def base256 (x : Nat) : List Nat :=
  if x < 256 then [x] else base256 (x / 256) ++ [x % 256]
termination_by x

/-- Section 2.3.1, `enc8(i)`: the byte encoding of an integer between 0 and 255, bit 0 first. -/
def enc8 (i : Nat) : Bits := (List.range 8).map fun j => i.testBit j

/-- Section 2.3.1, `left_encode(x)`: `O_0 || O_1 || ... || O_n` with `O_0 = enc8(n)` and `O_1 ... O_n` the
base-256 encoding of `x`. -/
def left_encode (x : Nat) : Bits := enc8 (base256 x).length ++ (base256 x).flatMap enc8

/-- Section 2.3.1, `right_encode(x)`: `O_1 || ... || O_n || O_{n+1}`, with `O_{n+1} = enc8(n)`. -/
def right_encode (x : Nat) : Bits := (base256 x).flatMap enc8 ++ enc8 (base256 x).length

/-- Section 2.3.2, `encode_string(S) = left_encode(len(S)) || S`. -/
def encode_string (S : Bits) : Bits := left_encode S.length ++ S

/-- Append zeros until the length is a multiple of `m`. -/
def padTo (m : Nat) (z : Bits) : Bits := z ++ List.replicate ((m - z.length % m) % m) false

/-- Section 2.3.3, `bytepad(X, w)`: `z = left_encode(w) || X`, zeros to a whole number of bytes, then zero
bytes to a multiple of `w` bytes. -/
def bytepad (X : Bits) (w : Nat) : Bits := padTo (8 * w) (padTo 8 (left_encode w ++ X))

/-- Section 3.3, `cSHAKE128/256(X, L, N, S)`, with `s` = 128 or 256 (the rate in bytes is 168 or 136). -/
def cSHAKE (f : Bits → Bits) (s : Nat) (X : Bits) (L : Nat) (N S : Bits) : Bits :=
  if N = [] ∧ S = [] then SHAKE f s X L
  else KECCAK f (2 * s)
    (bytepad (encode_string N ++ encode_string S) ((1600 - 2 * s) / 8) ++ X ++ [false, false]) L

/-- The bit string of a character string given by its ASCII codes. -/
def ascii (l : List Nat) : Bits := l.flatMap enc8

/-- Section 4.3, `KMAC128/256(K, X, L, S)`. -/
def KMAC (f : Bits → Bits) (s : Nat) (K X : Bits) (L : Nat) (S : Bits) : Bits :=
  cSHAKE f s (bytepad (encode_string K) ((1600 - 2 * s) / 8) ++ X ++ right_encode L) L
    (ascii [75, 77, 65, 67]) S

/-- Section 4.3.1, `KMACXOF128/256(K, X, L, S)`: `right_encode(0)` instead of `right_encode(L)`. -/
def KMACXOF (f : Bits → Bits) (s : Nat) (K X : Bits) (L : Nat) (S : Bits) : Bits :=
  cSHAKE f s (bytepad (encode_string K) ((1600 - 2 * s) / 8) ++ X ++ right_encode 0) L
    (ascii [75, 77, 65, 67]) S

/-- Section 5.3, `TupleHash128/256(X, L, S)`. -/
def TupleHash (f : Bits → Bits) (s : Nat) (X : List Bits) (L : Nat) (S : Bits) : Bits :=
  cSHAKE f s (X.flatMap encode_string ++ right_encode L) L
    (ascii [84, 117, 112, 108, 101, 72, 97, 115, 104]) S

/-- Section 5.3.1, `TupleHashXOF128/256(X, L, S)`. -/
def TupleHashXOF (f : Bits → Bits) (s : Nat) (X : List Bits) (L : Nat) (S : Bits) : Bits :=
  cSHAKE f s (X.flatMap encode_string ++ right_encode 0) L
    (ascii [84, 117, 112, 108, 101, 72, 97, 115, 104]) S

/-- The string `z` of section 6.3: `left_encode(B)`, then for each block of `B` bytes of `X` (the last one
may be shorter) `cSHAKE(block, 2s, "", "")`, then `right_encode(n)` with `n = ceil((len(X)/8)/B)`. -/
def parallelString (f : Bits → Bits) (s : Nat) (X : Bits) (B : Nat) : Bits :=
  let n := (X.length + 8 * B - 1) / (8 * B)
  left_encode B ++
  ((List.range n).flatMap fun i => cSHAKE f s ((X.drop (i * (8 * B))).take (8 * B)) (2 * s) [] []) ++
  right_encode n

/-- Section 6.3, `ParallelHash128/256(X, B, L, S)`. -/
def ParallelHash (f : Bits → Bits) (s : Nat) (X : Bits) (B L : Nat) (S : Bits) : Bits :=
  cSHAKE f s (parallelString f s X B ++ right_encode L) L
    (ascii [80, 97, 114, 97, 108, 108, 101, 108, 72, 97, 115, 104]) S

/-- Section 6.3.1, `ParallelHashXOF128/256(X, B, L, S)`. -/
def ParallelHashXOF (f : Bits → Bits) (s : Nat) (X : Bits) (B L : Nat) (S : Bits) : Bits :=
  cSHAKE f s (parallelString f s X B ++ right_encode 0) L
    (ascii [80, 97, 114, 97, 108, 108, 101, 108, 72, 97, 115, 104]) S

end Spec
