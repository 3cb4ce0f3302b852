import Verif.Spec.Farfalle

/-!
# Farfalle modes: SANE, SANSE, WBC and WBC-AE

Transcribed from "Farfalle: parallel permutation-based cryptography" (Algorithms 2 to 6) and "The design of Xoodoo and Xoofff" /
"Xoodoo cookbook" (Deck-SANE, Deck-SANSE, Deck-WBC, Deck-WBC-AE).  Everything is on bit strings; `F` is Farfalle with parameters `P`
under the mask `k`; a history is the list of its strings, oldest first.  Nothing here refers to the model of the code.
-/

namespace Spec.Farfalle

variable (P : Par)

/-! ## SANE: session authenticated encryption with a nonce -/

/-- A session: the mask, the history, the bit `e`. -/
structure Session where
  k : Bits
  hist : List Bits
  e : Bool

/-- Tag length in bits. -/
def Sane.t : Nat := 128

/-- Start of a session with key `K` and nonce `N`: the session and the start-up tag. -/
def Sane.start (K N : Bits) : Session × Bits :=
  let S : Session := ⟨mask P K, [N], false⟩
  (S, output P S.k S.hist 0 Sane.t)

/-- The history after a message with metadata `A` and ciphertext `C`. -/
def Sane.next (S : Session) (A C : Bits) : Session :=
  let h := if A ≠ [] ∨ C = [] then S.hist ++ [A ++ [false, S.e]] else S.hist
  ⟨S.k, if C ≠ [] then h ++ [C ++ [true, S.e]] else h, !S.e⟩

/-- The key stream for a text of `n` bits: the bits of `F(history)` after the tag. -/
def Sane.keystream (S : Session) (n : Nat) : Bits := output P S.k S.hist Sane.t n

/-- Wrapping the plaintext `M` with metadata `A`: the session, the ciphertext and the tag. -/
def Sane.wrap (S : Session) (A M : Bits) : Session × Bits × Bits :=
  let C := xorBits M (Sane.keystream P S M.length)
  let S' := Sane.next S A C
  (S', C, output P S'.k S'.hist 0 Sane.t)

/-- Unwrapping: the session, and the plaintext unless the tag is wrong. -/
def Sane.unwrap (S : Session) (A C T : Bits) : Session × Option Bits :=
  let M := xorBits C (Sane.keystream P S C.length)
  let S' := Sane.next S A C
  (S', if output P S'.k S'.hist 0 Sane.t = T then some M else none)

/-! ## SANSE: session authenticated encryption, SIV style -/

/-- Tag length in bits. -/
def Sanse.t : Nat := 256

/-- Start of a session. -/
def Sanse.start (K : Bits) : Session := ⟨mask P K, [], false⟩

/-- The history after the metadata `A` of a message with plaintext `M`. -/
def Sanse.meta (S : Session) (A M : Bits) : List Bits :=
  if A ≠ [] ∨ M = [] then S.hist ++ [A ++ [false, S.e]] else S.hist

/-- The history after a message with metadata `A` and plaintext `M`. -/
def Sanse.next (S : Session) (A M : Bits) : Session :=
  let h := Sanse.meta S A M
  ⟨S.k, if M ≠ [] then h ++ [M ++ [false, true, S.e]] else h, !S.e⟩

/-- The key stream for a text of `n` bits and the tag `T`, `h` being the history after the metadata. -/
def Sanse.keystream (S : Session) (h : List Bits) (T : Bits) (n : Nat) : Bits :=
  output P S.k (h ++ [T ++ [true, true, S.e]]) 0 n

/-- Wrapping the plaintext `M` with metadata `A`: the session, the ciphertext and the tag. -/
def Sanse.wrap (S : Session) (A M : Bits) : Session × Bits × Bits :=
  let S' := Sanse.next S A M
  let T := output P S'.k S'.hist 0 Sanse.t
  (S', xorBits M (Sanse.keystream P S (Sanse.meta S A M) T M.length), T)

/-- Unwrapping: the session, and the plaintext unless the tag is wrong. -/
def Sanse.unwrap (S : Session) (A C T : Bits) : Session × Option Bits :=
  let M := xorBits C (Sanse.keystream P S (Sanse.meta S A C) T C.length)
  let S' := Sanse.next S A M
  (S', if output P S'.k S'.hist 0 Sanse.t = T then some M else none)

/-! ## WBC: wide block cipher -/

/-- The leftmost bits of `X` added to `Y`, which is not longer. -/
def xorFirst (X Y : Bits) : Bits := xorBits (X.take Y.length) Y ++ X.drop Y.length

/-- `H` applied to one string: output of the variant without `p_d`. -/
def H (k X : Bits) (n : Nat) : Bits := output P.short k [X] 0 n

/-- `G` applied to a string and the tweak. -/
def G (k W X : Bits) (n : Nat) : Bits := output P k [W, X] 0 n

/-- Enciphering with mask `k`, tweak `W` and a left part of `nL` bits. -/
def Wbc.encipher (k W : Bits) (nL : Nat) (M : Bits) : Bits :=
  let L := M.take nL
  let R := M.drop nL
  let R := xorFirst R (H P k (L ++ [false]) (min P.b R.length))
  let L := xorBits L (G P k W (R ++ [true]) L.length)
  let R := xorBits R (G P k W (L ++ [false]) R.length)
  let L := xorFirst L (H P k (R ++ [true]) (min P.b L.length))
  L ++ R

/-- Deciphering. -/
def Wbc.decipher (k W : Bits) (nL : Nat) (M : Bits) : Bits :=
  let L := M.take nL
  let R := M.drop nL
  let L := xorFirst L (H P k (R ++ [true]) (min P.b L.length))
  let R := xorBits R (G P k W (L ++ [false]) R.length)
  let L := xorBits L (G P k W (R ++ [true]) L.length)
  let R := xorFirst R (H P k (L ++ [false]) (min P.b R.length))
  L ++ R

/-- The split of Algorithm 5 ("split[b, ℓ]"), as the properties that determine it.  `nL` is a multiple of `l`; a string with at most
`2b - (l + 2)` bits is cut as evenly as the lanes of `l` bits permit, and each part with its separation bit and padding fits in one
block; for a longer string the right part with its separation bit and padding fills a power of two of blocks, and the left part
fills the others with at most as many. -/
structure IsSplit (b l n nL : Nat) : Prop where
  le : nL ≤ n
  lane : l ∣ nL
  small : n ≤ 2 * b - (l + 2) → nL ≤ b - l ∧ n - nL ≤ b - 2 ∧ 2 * nL ≤ n + l ∧ n < 2 * nL + l
  large : 2 * b - (l + 2) < n → ∃ x q : Nat, (n - nL + 1) / b + 1 = 2 ^ x ∧ (nL + 1) / b + 1 = q ∧
    1 ≤ q ∧ q ≤ 2 ^ x ∧ nL + l = q * b

/-! ## WBC-AE: authenticated encryption with WBC -/

/-- Number of zeros added. -/
def Wbcae.t : Nat := 128

/-- Enciphering the text `M` with metadata `A`; `split` gives the length of the left part. -/
def Wbcae.wrap (split : Nat → Nat) (k A M : Bits) : Bits :=
  Wbc.encipher P k A (split (M.length + Wbcae.t)) (M ++ List.replicate Wbcae.t false)

/-- Deciphering `C`, which has 128 bits more than the text. -/
def Wbcae.unwrap (split : Nat → Nat) (k A C : Bits) : Option Bits :=
  let X := Wbc.decipher P k A (split C.length) C
  let n := C.length - Wbcae.t
  if X.drop n = List.replicate Wbcae.t false then some (X.take n) else none

end Spec.Farfalle
