import Verif.Model.Simd
import Verif.Model.Xoodoo

/-!
# Vector registers seen as 32-bit lanes

The counterpart of `Model/Simd.lean` for the implementations of Xoodoo: a register of `n` 32-bit lanes is a function
`Fin n → Lane`, lane 0 being the least significant one: `n = 4` for `__m128i` (`V128`), 8 for `__m256i` (`V256`), 16 for `__m512i`
(`V512`).  The meaning of the intrinsics is taken from the Intel and AMD manuals, and is part of the trusted base; for AVX-512,
`lib/low/Xoodoo-times16/AVX512/Xoodoo-times16-SIMD512.c` (cited as `x16`) contains C versions of those it uses
(`SIMULATE_AVX512`), which are cited where they exist.

Memory is a list of bytes; an access outside of it gives `none`.  The platform is little-endian (the sources check it).
Alignment is not modelled.
-/

namespace Simd32

open Xoodoo (Lane wordOfBytes bytesOfWord)

/-- `V128`, `V256` or `V512` (SSSE3/Xoodoo-times4-SnP.h:24, AVX2/Xoodoo-times8-SnP.h:24, AVX512/Xoodoo-times16-SnP.h:24). -/
abbrev Vec (n : Nat) := Fin n → Lane

variable {n : Nat}

/-- Lane `i` of a register; 0 outside. -/
def Vec.at (a : Vec n) (i : Nat) : Lane := if h : i < n then a ⟨i, h⟩ else 0

/-- A register from the list of its lanes, lane 0 first: `_mm_setr_epi32`, `_mm256_setr_epi32`, `_mm512_setr_epi32` (x16:199-221),
or a constant table read as a register. -/
def ofList (n : Nat) (l : List Lane) : Vec n := fun i => l.getD i.val 0

/-- `_mm_xor_si128`, `_mm256_xor_si256`, `_mm512_xor_si512` (x16:106-114). -/
def xor (a b : Vec n) : Vec n := fun i => a i ^^^ b i

/-- `_mm_andnot_si128`, `_mm256_andnot_si256`: the first operand is complemented. -/
def andnot (a b : Vec n) : Vec n := fun i => ~~~ a i &&& b i

/-- `_mm_or_si128`, `_mm256_or_si256`. -/
def or (a b : Vec n) : Vec n := fun i => a i ||| b i

/-- `_mm256_and_si256`, `_mm512_and_si512` (x16:116-124). -/
def and (a b : Vec n) : Vec n := fun i => a i &&& b i

/-- `_mm_slli_epi32`, `_mm256_slli_epi32`, `_mm512_slli_epi32` (x16:154-162). -/
def slli (a : Vec n) (o : Nat) : Vec n := fun i => a i <<< o

/-- `_mm_srli_epi32`, `_mm256_srli_epi32`. -/
def srli (a : Vec n) (o : Nat) : Vec n := fun i => a i >>> o

/-- `_mm_roti_epi32` (XOP) and `_mm512_rol_epi32` (x16:144-152): rotation to the left. -/
def roti (a : Vec n) (o : Nat) : Vec n := fun i => (a i).rotateLeft o

/-- `_mm_set1_epi32`, `_mm256_set1_epi32`, `_mm512_set1_epi32` (x16:164-172). -/
def set1 (x : Lane) : Vec n := fun _ => x

/-- `_mm_ternarylogic_epi32`, `_mm256_ternarylogic_epi32`, `_mm512_ternarylogic_epi32` (x16:126-142, for the two values of `imm` used):
in every bit position, bit `4 * a + 2 * b + c` of `imm`. -/
def ternarylogic (a b c : Vec n) (imm : Nat) : Vec n := fun i =>
  (List.range 8).foldl (fun r k =>
    if imm.testBit k then
      r ||| ((if k / 4 = 1 then a i else ~~~ a i) &&& (if k / 2 % 2 = 1 then b i else ~~~ b i) &&& (if k % 2 = 1 then c i else ~~~ c i))
    else r) 0

/-- Byte `k` of a word. -/
def byte (w : Lane) (k : Nat) : Byte := (w >>> (8 * k)).setWidth 8

/-- `_mm_shuffle_epi8`, `_mm256_shuffle_epi8`: in each 128-bit half, byte `r` of the result is the byte selected by the low
four bits of byte `r` of the mask, or 0 if the top bit of the latter is set. -/
def shuffleEpi8 (a m : Vec n) : Vec n := fun l =>
  wordOfBytes ((List.range 4).map fun r =>
    let b := byte (m l) r
    if b.msb then 0 else byte (a.at (l.val / 4 * 4 + b.toNat % 16 / 4)) (b.toNat % 4))

/-- `_mm256_permutevar8x32_epi32`. -/
def permutevar8x32 (a idx : Vec 8) : Vec 8 := fun l => a.at ((idx l).toNat % 8)

/-- `_mm256_permute4x64_epi64`, on pairs of 32-bit lanes. -/
def permute4x64 (a : Vec 8) (c : Nat) : Vec 8 := fun l => a.at (c / 4 ^ (l.val / 2) % 4 * 2 + l.val % 2)

/-- `_mm256_blend_epi32`: bit `l` of `c` selects lane `l` of `b` instead of the one of `a`. -/
def blendEpi32 (a b : Vec 8) (c : Nat) : Vec 8 := fun l => if c.testBit l.val then b l else a l

/-- `_mm256_extract_epi32`, `_mm_extract_epi32`, or reading a 32-bit word of a register in memory. -/
def extractEpi32 (a : Vec n) (i : Nat) : Lane := a.at i

/-- `_mm256_insert_epi32`. -/
def insertEpi32 (a : Vec n) (x : Lane) (i : Nat) : Vec n := fun l => if l.val = i then x else a l

/-- `_mm256_unpacklo_epi32`: the two low lanes of each 128-bit half, interleaved. -/
def unpacklo32 (a b : Vec n) : Vec n := fun l =>
  if l.val % 2 = 0 then a.at (l.val / 4 * 4 + l.val % 4 / 2) else b.at (l.val / 4 * 4 + l.val % 4 / 2)

/-- `_mm256_unpackhi_epi32`: the two high lanes of each 128-bit half, interleaved. -/
def unpackhi32 (a b : Vec n) : Vec n := fun l =>
  if l.val % 2 = 0 then a.at (l.val / 4 * 4 + 2 + l.val % 4 / 2) else b.at (l.val / 4 * 4 + 2 + l.val % 4 / 2)

/-- `_mm256_unpacklo_epi64`: the low 64 bits of each 128-bit half. -/
def unpacklo64 (a b : Vec n) : Vec n := fun l =>
  if l.val % 4 < 2 then a.at (l.val / 4 * 4 + l.val % 2) else b.at (l.val / 4 * 4 + l.val % 2)

/-- `_mm256_unpackhi_epi64`: the high 64 bits of each 128-bit half. -/
def unpackhi64 (a b : Vec n) : Vec n := fun l =>
  if l.val % 4 < 2 then a.at (l.val / 4 * 4 + 2 + l.val % 2) else b.at (l.val / 4 * 4 + 2 + l.val % 2)

/-- `_mm256_permute2x128_si256`: each 128-bit half of the result is one of the four halves of the operands, or 0. -/
def permute2x128 (a b : Vec 8) (c : Nat) : Vec 8 := fun l =>
  let sel := if l.val < 4 then c % 16 else c / 16 % 16
  if sel / 8 % 2 = 1 then 0
  else if sel % 4 < 2 then a.at (sel % 2 * 4 + l.val % 4) else b.at (sel % 2 * 4 + l.val % 4)

/-- `_mm256_castsi256_si128`. -/
def castLow (a : Vec 8) : Vec 4 := fun l => a.at l.val

/-- `_mm256_extracti128_si256(a, 1)`. -/
def extractHigh (a : Vec 8) : Vec 4 := fun l => a.at (4 + l.val)

/-- `_mm512_permutexvar_epi32(idx, a)` (x16:232-239). -/
def permutexvar (idx a : Vec n) : Vec n := fun l => a.at ((idx l).toNat % n)

/-- `_mm_permutex2var_epi32`, `_mm256_permutex2var_epi32`, `_mm512_permutex2var_epi32(a, idx, b)` (x16:223-230): the low bits of the index
select a lane, and the next bit the register. -/
def permutex2var (a idx b : Vec n) : Vec n := fun l =>
  if (idx l).toNat / n % 2 = 1 then b.at ((idx l).toNat % n) else a.at ((idx l).toNat % n)

/-- `_mm256_inserti128_si256(_mm256_castsi128_si256(a), b, 1)` and `_mm512_inserti64x4(_mm512_castsi256_si512(a), b, 1)`: the lanes that the
cast leaves undefined are those that are inserted. -/
def join {m : Nat} (a b : Vec m) : Vec (2 * m) := fun l => if l.val < m then a.at l.val else b.at (l.val - m)

/-- Reading a 32-bit word at byte `at` of a buffer. -/
def loadWord (buf : Bytes) (at_ : Nat) : Option Lane := (SnP.readBuf (buf.drop at_) 4).map wordOfBytes

/-- Storing a 32-bit word at byte `at` of a buffer. -/
def storeWord (buf : Bytes) (at_ : Nat) (w : Lane) : Option Bytes := SnP.overwriteBytes buf (bytesOfWord w) at_

/-- `_mm_load_si128`, `_mm_loadu_si128`, `_mm256_load_si256`, `_mm256_loadu_si256`, `_mm512_load_si512`, `_mm512_loadu_si512`
(x16:83-92), or reading a variable of a register type: `n` consecutive words. -/
def loadVec (n : Nat) (buf : Bytes) (at_ : Nat) : Option (Vec n) :=
  (SnP.readBuf (buf.drop at_) (4 * n)).map fun b i => wordOfBytes (b.drop (4 * i.val))

/-- The bytes of a register. -/
def bytesOfVec (v : Vec n) : Bytes := (List.finRange n).flatMap fun i => bytesOfWord (v i)

/-- `_mm_store_si128`, `_mm_storeu_si128`, `_mm256_store_si256`, `_mm256_storeu_si256`, `_mm512_store_si512`, `_mm512_storeu_si512`
(x16:72-79), or assigning a variable of a register type. -/
def storeVec (buf : Bytes) (at_ : Nat) (v : Vec n) : Option Bytes := SnP.overwriteBytes buf (bytesOfVec v) at_

/-- `_mm512_maskz_load_epi64` (x16:54-70): the 64-bit lanes whose bit in the mask is 0 are not read, and become 0. -/
def maskzLoad64 (mask : Nat) (buf : Bytes) (at_ : Nat) : Option (Vec 16) :=
  if ∀ i : Fin 16, mask.testBit (i.val / 2) = true → at_ + 4 * i.val + 4 ≤ buf.length then
    some fun i => if mask.testBit (i.val / 2) then wordOfBytes (buf.drop (at_ + 4 * i.val)) else 0
  else none

/-- `_mm512_mask_store_epi64` (x16:43-52): the 64-bit lanes whose bit in the mask is 0 are not written. -/
def maskStore64 (mask : Nat) (buf : Bytes) (at_ : Nat) (v : Vec 16) : Option Bytes :=
  (List.range 16).foldlM (fun buf i => if mask.testBit (i / 2) then storeWord buf (at_ + 4 * i) (v.at i) else some buf) buf

/-- `_mm256_i32gather_epi32`, `_mm512_i32gather_epi32` (x16:174-181) with scale 4, from byte `at` of a buffer on.  The indices are
`int`: a negative one points before the pointer and is treated here as an access outside of the buffer. -/
def gather (buf : Bytes) (at_ : Nat) (idx : Vec n) : Option (Vec n) :=
  if ∀ i, (idx i).msb = false ∧ at_ + 4 * (idx i).toNat + 4 ≤ buf.length then
    some fun i => wordOfBytes (buf.drop (at_ + 4 * (idx i).toNat))
  else none

/-- `_mm512_mask_i32scatter_epi32` (x16:190-197) with scale 4, or `_mm512_i32scatter_epi32` (x16:183-188) for a mask of ones: the lanes are
stored one after the other. -/
def scatter (mask : Nat) (buf : Bytes) (at_ : Nat) (idx v : Vec n) : Option Bytes :=
  (List.range n).foldlM (fun buf i =>
    if mask.testBit i then
      if (idx.at i).msb then none else storeWord buf (at_ + 4 * (idx.at i).toNat) (v.at i)
    else some buf) buf

/-- `for(i=a; i<b; i++) f(i);` -/
def forTo {σ : Type} (f : Nat → σ → Option σ) (a b : Nat) (s : σ) : Option σ := Simd.forTo f a b s

/-- `f(i1); f(i2); ...`, written out. -/
def seq {σ : Type} (f : Nat → σ → Option σ) (is : List Nat) (s : σ) : Option σ := Simd.seq f is s

end Simd32
