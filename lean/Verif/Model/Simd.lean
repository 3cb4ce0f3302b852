import Verif.Model.KeccakP1600
import Verif.Model.SnP

/-!
# Vector registers and the intrinsics the SIMD implementations use

A register of `n` 64-bit lanes is a function `Fin n → Lane`, lane 0 being the least significant one: `n = 2` for
`__m128i` (`V128`), 4 for `__m256i` (`V256`), 8 for `__m512i` (`V512`).  The intrinsics have no source in the repository; their
meaning is taken from the Intel (SSE2, SSSE3, AVX, AVX2, AVX-512) and AMD (XOP) manuals, and is part of the trusted base.  (The
AVX-512 files contain, for `SIMULATE_AVX512`, C versions of the intrinsics they use; they are cited where they exist.)

Memory is a list of bytes; an access outside of it gives `none`.  The platform is little-endian (the sources check it).
Alignment is not modelled.
-/

namespace Simd

open KeccakP1600 (Lane wordOfBytes bytesOfWord)

/-- `V128`, `V256` or `V512` (SIMD128/KeccakP-1600-times2-SnP.h:24, AVX2/KeccakP-1600-times4-SnP.h:25, AVX512/KeccakP-1600-times8-SnP.h:25). -/
abbrev Vec (n : Nat) := Fin n → Lane

variable {n : Nat}

/-- Lane `i` of a register; 0 outside. -/
def Vec.at (a : Vec n) (i : Nat) : Lane := if h : i < n then a ⟨i, h⟩ else 0

/-- `_mm_xor_si128`, `_mm256_xor_si256`, `_mm512_xor_si512` (KeccakP-1600-times8-SIMD512.c:62-70). -/
def xor (a b : Vec n) : Vec n := fun i => a i ^^^ b i

/-- `_mm_andnot_si128`, `_mm256_andnot_si256`: the first operand is complemented. -/
def andnot (a b : Vec n) : Vec n := fun i => ~~~ a i &&& b i

/-- `_mm_or_si128`, `_mm256_or_si256`. -/
def or (a b : Vec n) : Vec n := fun i => a i ||| b i

/-- `_mm256_and_si256`. -/
def and (a b : Vec n) : Vec n := fun i => a i &&& b i

/-- `_mm_slli_epi64`, `_mm256_slli_epi64`. -/
def slli (a : Vec n) (o : Nat) : Vec n := fun i => a i <<< o

/-- `_mm_srli_epi64`, `_mm256_srli_epi64`. -/
def srli (a : Vec n) (o : Nat) : Vec n := fun i => a i >>> o

/-- `_mm_roti_epi64` (XOP) and `_mm512_rol_epi64` (KeccakP-1600-times8-SIMD512.c:90-98): rotation to the left. -/
def roti (a : Vec n) (o : Nat) : Vec n := fun i => (a i).rotateLeft o

/-- `_mm_set1_epi64x`, `_mm256_set1_epi64x`, `_mm512_set1_epi64`. -/
def set1 (x : Lane) : Vec n := fun _ => x

/-- `_mm_set_epi64x(x1, x0)`: the last argument is lane 0. -/
def set2 (x1 x0 : Lane) : Vec 2 := fun i => [x0, x1].getD i.val 0

/-- `_mm256_set_epi64x(x3, x2, x1, x0)`: the last argument is lane 0. -/
def set4 (x3 x2 x1 x0 : Lane) : Vec 4 := fun i => [x0, x1, x2, x3].getD i.val 0

/-- Byte `k` of a word. -/
def byte (w : Lane) (k : Nat) : Byte := (w >>> (8 * k)).setWidth 8

/-- `_mm_shuffle_epi8`, `_mm256_shuffle_epi8`: in each 128-bit half, byte `r` of the result is the byte selected by the low
four bits of byte `r` of the mask, or 0 if the top bit of the latter is set. -/
def shuffleEpi8 (a m : Vec n) : Vec n := fun l =>
  wordOfBytes ((List.range 8).map fun r =>
    let b := byte (m l) r
    if b.msb then 0 else byte (a.at (l.val / 2 * 2 + b.toNat % 16 / 8)) (b.toNat % 8))

/-- `_mm_unpacklo_epi64`, `_mm256_unpacklo_epi64`: the low lanes of each 128-bit half. -/
def unpacklo (a b : Vec n) : Vec n := fun l => if l.val % 2 = 0 then a.at (l.val / 2 * 2) else b.at (l.val / 2 * 2)

/-- `_mm_unpackhi_epi64`, `_mm256_unpackhi_epi64`: the high lanes of each 128-bit half. -/
def unpackhi (a b : Vec n) : Vec n := fun l =>
  if l.val % 2 = 0 then a.at (l.val / 2 * 2 + 1) else b.at (l.val / 2 * 2 + 1)

/-- `_mm256_permute2f128_si256`, `_mm256_permute2x128_si256`: each 128-bit half of the result is one of the four halves
of the operands, or 0. -/
def permute2x128 (a b : Vec 4) (c : Nat) : Vec 4 := fun l =>
  let sel := if l.val < 2 then c % 16 else c / 16 % 16
  if sel / 8 % 2 = 1 then 0
  else if sel % 4 < 2 then a.at (sel % 2 * 2 + l.val % 2) else b.at (sel % 2 * 2 + l.val % 2)

/-- `_mm256_shuffle_pd` on registers seen as 64-bit lanes. -/
def shufflePd (a b : Vec 4) (c : Nat) : Vec 4 := fun l =>
  let bit := c / 2 ^ l.val % 2
  if l.val % 2 = 0 then a.at (l.val / 2 * 2 + bit) else b.at (l.val / 2 * 2 + bit)

/-- `_mm256_permute4x64_epi64`. -/
def permute4x64 (a : Vec 4) (c : Nat) : Vec 4 := fun l => a.at (c / 4 ^ l.val % 4)

/-- `_mm256_blend_epi32`: bit `j` of `c` selects the 32-bit word `j` of `b` instead of the one of `a`. -/
def blendEpi32 (a b : Vec 4) (c : Nat) : Vec 4 := fun l =>
  ((if c / 2 ^ (2 * l.val + 1) % 2 = 1 then b l else a l).extractLsb' 32 32) ++
  ((if c / 2 ^ (2 * l.val) % 2 = 1 then b l else a l).extractLsb' 0 32)

/-- `_mm256_extract_epi64`. -/
def extractEpi64 (a : Vec 4) (i : Nat) : Lane := a.at i

/-- `_mm256_insert_epi64`. -/
def insertEpi64 (a : Vec 4) (x : Lane) (i : Nat) : Vec 4 := fun l => if l.val = i then x else a l

/-- `_mm256_extract_epi32`: an `int`. -/
def extractEpi32 (a : Vec 4) (j : Nat) : BitVec 32 := (a.at (j / 2)).extractLsb' (32 * (j % 2)) 32

/-- `_mm256_insert_epi32`. -/
def insertEpi32 (a : Vec 4) (x : BitVec 32) (j : Nat) : Vec 4 := fun l =>
  if l.val = j / 2 then
    (if j % 2 = 0 then (a l).extractLsb' 32 32 ++ x else x ++ (a l).extractLsb' 0 32)
  else a l

/-- Reading a 64-bit word at byte `at` of a buffer. -/
def loadWord (buf : Bytes) (at_ : Nat) : Option Lane := (SnP.readBuf (buf.drop at_) 8).map wordOfBytes

/-- Storing a 64-bit word at byte `at` of a buffer. -/
def storeWord (buf : Bytes) (at_ : Nat) (w : Lane) : Option Bytes := SnP.overwriteBytes buf (bytesOfWord w) at_

/-- `_mm_load_si128`, `_mm_loadu_si128`, `_mm256_load_si256`, `_mm256_loadu_si256`, `_mm512_load_si512`, or reading a variable of
a register type: `n` consecutive words. -/
def loadVec (n : Nat) (buf : Bytes) (at_ : Nat) : Option (Vec n) :=
  (SnP.readBuf (buf.drop at_) (8 * n)).map fun b i => wordOfBytes (b.drop (8 * i.val))

/-- The bytes of a register. -/
def bytesOfVec (v : Vec n) : Bytes := (List.finRange n).flatMap fun i => bytesOfWord (v i)

/-- `_mm_store_si128`, `_mm_storeu_si128`, `_mm256_store_si256`, `_mm256_storeu_si256`, `_mm512_store_si512`, or assigning a variable
of a register type. -/
def storeVec (buf : Bytes) (at_ : Nat) (v : Vec n) : Option Bytes := SnP.overwriteBytes buf (bytesOfVec v) at_

/-- `for(i=a; i<b; i++) f(i);` -/
def forTo {σ : Type} (f : Nat → σ → Option σ) (a b : Nat) (s : σ) : Option σ :=
  (List.range' a (b - a)).foldlM (fun s i => f i s) s

/-- `f(i1); f(i2); ...`, written out. -/
def seq {σ : Type} (f : Nat → σ → Option σ) (is : List Nat) (s : σ) : Option σ := is.foldlM (fun s i => f i s) s

end Simd
