import Verif.Base.Bits

/-!
# FIPS 202: the sponge construction and pad10*1

Transcribed from FIPS 202 section 4 (Algorithm 8 SPONGE[f, pad, r](N, d)) and section 5.1 (Algorithm 9
pad10*1(x, m)).  Everything is on bit strings; nothing here refers to the model of the code.
-/

namespace Spec

/-- Algorithm 9, `pad10*1(x, m)`: `1 || 0^j || 1` with `j = (-m-2) mod x`. -/
def pad101 (x m : Nat) : Bits :=
  [true] ++ List.replicate (((-(m : Int) - 2) % (x : Int)).toNat) false ++ [true]

/-- Bitwise exclusive or of two bit strings of equal length. -/
def xorBits (a b : Bits) : Bits := List.zipWith Bool.xor a b

/-- Steps 1-4 of Algorithm 8: the sequence of `r`-bit strings whose concatenation is the padded input. -/
def blocks (r : Nat) (P : Bits) : List Bits :=
  (List.range (P.length / r)).map fun i => (P.drop (i * r)).take r

/-- Steps 5-6 of Algorithm 8: `S = f(S xor (P_i || 0^c))` for each block. -/
def absorb (f : Bits → Bits) (c : Nat) (S : Bits) (Ps : List Bits) : Bits :=
  Ps.foldl (fun S Pi => f (xorBits S (Pi ++ List.replicate c false))) S

/-- Steps 7-10 of Algorithm 8: concatenate `Trunc_r(S)`, `Trunc_r(f(S))`, `Trunc_r(f(f(S)))`, ... until `d`
bits are available and return the first `d` of them. -/
def squeeze (f : Bits → Bits) (r : Nat) (S : Bits) (d : Nat) : Bits :=
  ((List.range (d / r + 1)).flatMap fun i => (Nat.repeat f i S).take r).take d

/-- Algorithm 8, `SPONGE[f, pad10*1, r](N, d)` with `b` the width of `f`. -/
def sponge (b : Nat) (f : Bits → Bits) (r : Nat) (N : Bits) (d : Nat) : Bits :=
  let P := N ++ pad101 r N.length
  let S := absorb f (b - r) (List.replicate b false) (blocks r P)
  squeeze f r S d

end Spec

namespace Spec

/-- FIPS 202 section 5.2: `KECCAK[c](N, d) = SPONGE[KECCAK-p[1600, 24], pad10*1, 1600-c](N, d)`; `f` stands
for KECCAK-p[1600, 24]. -/
def KECCAK (f : Bits → Bits) (c : Nat) (N : Bits) (d : Nat) : Bits := sponge 1600 f (1600 - c) N d

/-- FIPS 202 section 6.1: `SHA3-v(M) = KECCAK[2v](M || 01, v)` for v = 224, 256, 384, 512. -/
def SHA3 (f : Bits → Bits) (v : Nat) (M : Bits) : Bits := KECCAK f (2 * v) (M ++ [false, true]) v

/-- FIPS 202 section 6.2: `SHAKEs(M, d) = KECCAK[2s](M || 1111, d)` for s = 128, 256. -/
def SHAKE (f : Bits → Bits) (s : Nat) (M : Bits) (d : Nat) : Bits :=
  KECCAK f (2 * s) (M ++ [true, true, true, true]) d

/-- TurboSHAKE (RFC 9861): the sponge over Keccak-p[1600, 12] with capacity `c`, applied to the message
followed by the bits of the domain separation byte, the last set bit of which is the first bit of pad10*1.
`suffix` are the bits of the domain byte before that bit. -/
def TurboSHAKE (f12 : Bits → Bits) (c : Nat) (M suffix : Bits) (d : Nat) : Bits :=
  sponge 1600 f12 (1600 - c) (M ++ suffix) d

end Spec
