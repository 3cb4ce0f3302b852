import Verif.Spec.SP800185

/-!
# KangarooTwelve (RFC 9861, section 3)

On bit strings; nothing here refers to the model of the code.  `f12` stands for Keccak-p[1600, 12] and
`s` is the security level, 128 (KT128) or 256 (KT256).
-/

namespace Spec

/-- RFC 9861 section 3.3, `length_encode(x)`: the bytes of `x` in base 256, most significant first and without
leading zeros (none for `x = 0`), followed by their number. -/
def length_encode (x : Nat) : Bits :=
  if x = 0 then enc8 0 else (base256 x).flatMap enc8 ++ enc8 (base256 x).length

/-- The string `S = M || C || length_encode(|C|)`, with `|C|` in bytes. -/
def ktString (M C : Bits) : Bits := M ++ C ++ length_encode (C.length / 8)

/-- The chunk number `i` of `S`, of 8192 bytes except possibly the last one. -/
def ktChunk (S : Bits) (i : Nat) : Bits := (S.drop (i * 65536)).take 65536

/-- The number of chunks. -/
def ktChunks (S : Bits) : Nat := (S.length + 65535) / 65536

/-- The final node when there are several chunks: `S_0 || 110^62 || CV_1 || ... || CV_{n-1} ||
length_encode(n-1) || FFFF`, where `CV_i = TurboSHAKE(S_i || 110, 2s)`. -/
def ktFinalNode (f12 : Bits → Bits) (s : Nat) (S : Bits) : Bits :=
  ktChunk S 0 ++ ([true, true] ++ List.replicate 62 false) ++
  ((List.range (ktChunks S - 1)).flatMap fun i =>
    TurboSHAKE f12 (2 * s) (ktChunk S (i + 1)) [true, true, false] (2 * s)) ++
  length_encode (ktChunks S - 1) ++ List.replicate 16 true

/-- KT128 / KT256 with `d` bits of output. -/
def KangarooTwelve (f12 : Bits → Bits) (s : Nat) (M C : Bits) (d : Nat) : Bits :=
  if ktChunks (ktString M C) ≤ 1 then TurboSHAKE f12 (2 * s) (ktString M C) [true, true] d
  else TurboSHAKE f12 (2 * s) (ktFinalNode f12 s (ktString M C)) [false, true] d

end Spec
