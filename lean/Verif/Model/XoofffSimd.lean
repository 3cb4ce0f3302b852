import Verif.Model.XoodooSimd
import Verif.Model.FarfalleModes

/-!
# The functions for Xoofff of the SIMD implementations of several Xoodoo

Models `Xooffftimes8_CompressFastLoop`, `Xooffftimes8_ExpandFastLoop`, `Xooffftimes8_AddIs` and the functions of the same names with `times16` and `times4`, of
`lib/low/Xoodoo-times8/AVX2/Xoodoo-times8-SIMD256.c` (cited as `x8`), `lib/low/Xoodoo-times16/AVX512/Xoodoo-times16-SIMD512.c` (`x16`),
`lib/low/Xoodoo-times8/AVX512/Xoodoo-times8-SIMD512.c` (`y8`) and `lib/low/Xoodoo-times4/AVX512/Xoodoo-times4-SIMD512.c` (`y4`).  The four files
have the same text but for the registers that hold the state of the rolling function and how the data leave the registers; these are the
fields of `Fast`.

* The arrays of 12 `uint32_t` are lists of 48 bytes; `k`, `x`, `yAccu`, `kRoll`, `input` and `output` do not overlap.
* `size_t` has 64 bits.
* Alignment is not modelled: `*(V256*)&x32[0]` (x8:761), `_mm512_maskz_load_epi64` and `_mm512_mask_store_epi64` need `x` to be aligned.
-/

namespace XoofffSimd

open Xoodoo (Lane)
open Simd32
open XoodooSimd (Vars rolOr offsets rounds6)

/-- What differs between the four files. -/
structure Fast (N : Nat) where
  /-- the registers that hold the state of the rolling function -/
  Roll : Type
  /-- their initial values, from `k32` or `y32` -/
  load : Bytes → Option Roll
  /-- the first part of the loop of `CompressFastLoop` -/
  rollc : Roll → Vars (Vec N) × Roll
  /-- the first part of the loop of `ExpandFastLoop` -/
  rolle : Roll → Vars (Vec N) × Roll
  /-- the six calls of `Round` -/
  rounds : Vars (Vec N) → Vars (Vec N)
  /-- the part of `CompressFastLoop` that adds the accumulator to `x` -/
  reduce : Vars (Vec N) → Bytes → Option Bytes
  /-- "Save new k", "Save new y" -/
  save : Roll → Bytes → Option Bytes
  /-- "Extract" of `ExpandFastLoop` -/
  extract : Vars (Vec N) → Bytes → Option Bytes

variable {N : Nat}

/-- `a00 = XOR(a00, LOAD_GATHER(offsets, i32+0))`, ... (x8:680-693, x16:873-884, y8:1047-1058, y4:1030-1041). -/
def addInput (s : Vars (Vec N)) (i32 : Bytes) : Option (Vars (Vec N)) := do
  let g0 ← gather i32 (4 * 0) (offsets N 12)
  let g1 ← gather i32 (4 * 1) (offsets N 12)
  let g2 ← gather i32 (4 * 2) (offsets N 12)
  let g3 ← gather i32 (4 * 3) (offsets N 12)
  let g4 ← gather i32 (4 * 4) (offsets N 12)
  let g5 ← gather i32 (4 * 5) (offsets N 12)
  let g6 ← gather i32 (4 * 6) (offsets N 12)
  let g7 ← gather i32 (4 * 7) (offsets N 12)
  let g8 ← gather i32 (4 * 8) (offsets N 12)
  let g9 ← gather i32 (4 * 9) (offsets N 12)
  let g10 ← gather i32 (4 * 10) (offsets N 12)
  let g11 ← gather i32 (4 * 11) (offsets N 12)
  let a00 := xor (s.a0 0) g0
  let a01 := xor (s.a0 1) g1
  let a02 := xor (s.a0 2) g2
  let a03 := xor (s.a0 3) g3
  let a12 := xor (s.a1 2) g4
  let a13 := xor (s.a1 3) g5
  let a10 := xor (s.a1 0) g6
  let a11 := xor (s.a1 1) g7
  let a20 := xor (s.a2 0) g8
  let a21 := xor (s.a2 1) g9
  let a22 := xor (s.a2 2) g10
  let a23 := xor (s.a2 3) g11
  some ⟨![a00, a01, a02, a03], ![a10, a11, a12, a13], ![a20, a21, a22, a23]⟩

/-- `x00 = XOR(x00, a00)`, ... (x8:704-715, x16:895-906, y8:1069-1080, y4:1052-1063). -/
def accumulate (x a : Vars (Vec N)) : Vars (Vec N) :=
  ⟨![xor (x.a0 0) (a.a0 0), xor (x.a0 1) (a.a0 1), xor (x.a0 2) (a.a0 2), xor (x.a0 3) (a.a0 3)],
    ![xor (x.a1 0) (a.a1 0), xor (x.a1 1) (a.a1 1), xor (x.a1 2) (a.a1 2), xor (x.a1 3) (a.a1 3)],
    ![xor (x.a2 0) (a.a2 0), xor (x.a2 1) (a.a2 1), xor (x.a2 2) (a.a2 2), xor (x.a2 3) (a.a2 3)]⟩

/-- The variables of the loop of `CompressFastLoop` that are kept from one iteration to the next. -/
structure CSt (F : Fast N) where
  r : F.Roll
  x : Vars (Vec N)

/-- One iteration of the loop of `CompressFastLoop` (x8:657-718, x16:849-909, y8:1022-1083, y4:1005-1066). -/
def compressBody (F : Fast N) (i32 : Bytes) (s : CSt F) : Option (CSt F) := do
  let (a, r) := F.rollc s.r
  let a ← addInput a i32
  some ⟨r, accumulate s.x (F.rounds a)⟩

/-- `do { ...; length -= NLANES*4*N; } while (length >= NLANES*4*N)` (x8:656-721, 807-919; x16:848-912, 967-1035; y8:1021-1086, 1141-1207;
y4:1004-1069, 1127-1193): `step` is one iteration, given the number of iterations before it; the result has the last value of `length`. -/
def doWhile {σ : Type} (N : Nat) (step : Nat → σ → Option σ) : Nat → Nat → Nat → σ → Option (σ × Nat)
  | 0, _, _, _ => none
  | fuel + 1, length, done, s => do
    let s ← step done s
    let length := (length + 2 ^ 64 - 12 * 4 * N) % 2 ^ 64
    if length ≥ 12 * 4 * N then doWhile N step fuel length (done + 1) s else some (s, length)

/-- All of `x00`, ..., `x23` equal to 0 (x8:641-652, x16:835-846, y8:1008-1019, y4:991-1002). -/
def zero : Vars (Vec N) := ⟨fun _ => set1 0, fun _ => set1 0, fun _ => set1 0⟩

/-- `CompressFastLoop` (x8:617-783, x16:820-951, y8:989-1123, y4:969-1106): the new `k` and `x` and the value returned. -/
def compressFastLoop (F : Fast N) (fuel : Nat) (k x input : Bytes) (length : Nat) : Option (Bytes × Bytes × Nat) := do
  let r ← F.load k
  let initialLength := length
  let (s, length) ← doWhile N (fun i s => compressBody F (input.drop (4 * (12 * N * i))) s) fuel length 0 ⟨r, zero⟩
  let x ← F.reduce s.x x
  let k ← F.save s.r k
  some (k, x, (initialLength + 2 ^ 64 - length) % 2 ^ 64)

/-- `a00 = XOR(a00, CONST(k32[0]))`, ... (x8:840-851, x16:1004-1015, y8:1176-1187, y4:1162-1173). -/
def addKey (s : Vars (Vec N)) (k32 : Bytes) : Option (Vars (Vec N)) := do
  let k0 ← loadWord k32 (4 * 0)
  let k1 ← loadWord k32 (4 * 1)
  let k2 ← loadWord k32 (4 * 2)
  let k3 ← loadWord k32 (4 * 3)
  let k4 ← loadWord k32 (4 * 4)
  let k5 ← loadWord k32 (4 * 5)
  let k6 ← loadWord k32 (4 * 6)
  let k7 ← loadWord k32 (4 * 7)
  let k8 ← loadWord k32 (4 * 8)
  let k9 ← loadWord k32 (4 * 9)
  let k10 ← loadWord k32 (4 * 10)
  let k11 ← loadWord k32 (4 * 11)
  some ⟨![xor (s.a0 0) (set1 k0), xor (s.a0 1) (set1 k1), xor (s.a0 2) (set1 k2), xor (s.a0 3) (set1 k3)],
    ![xor (s.a1 0) (set1 k4), xor (s.a1 1) (set1 k5), xor (s.a1 2) (set1 k6), xor (s.a1 3) (set1 k7)],
    ![xor (s.a2 0) (set1 k8), xor (s.a2 1) (set1 k9), xor (s.a2 2) (set1 k10), xor (s.a2 3) (set1 k11)]⟩

/-- The variables of the loop of `ExpandFastLoop` that are kept, and the buffer `output`. -/
structure ESt (F : Fast N) where
  r : F.Roll
  out : Bytes

/-- One iteration of the loop of `ExpandFastLoop` (x8:808-916, x16:968-1032, y8:1142-1204, y4:1128-1190), with `o32` at byte `at` of the buffer. -/
def expandBody (F : Fast N) (kRoll : Bytes) (at_ : Nat) (s : ESt F) : Option (ESt F) := do
  let (a, r) := F.rolle s.r
  let a ← addKey (F.rounds a) kRoll
  let o ← F.extract a (s.out.drop at_)
  some ⟨r, s.out.take at_ ++ o⟩

/-- `ExpandFastLoop` (x8:785-937, x16:953-1042, y8:1125-1215, y4:1108-1202): the new `yAccu`, `output` and the value returned. -/
def expandFastLoop (F : Fast N) (fuel : Nat) (yAccu kRoll output : Bytes) (length : Nat) : Option (Bytes × Bytes × Nat) := do
  let r ← F.load yAccu
  let initialLength := length
  let (s, length) ← doWhile N (fun i s => expandBody F kRoll (4 * (12 * N * i)) s) fuel length 0 ⟨r, output⟩
  let yAccu ← F.save s.r yAccu
  some (yAccu, s.out, (initialLength + 2 ^ 64 - length) % 2 ^ 64)

/-! ### AVX2, 8 states -/

namespace Avx2

/-- `shuffleR_1`, `shuffleR_3`, `shuffleR_5`, `shuffleR_7`, `shufflePack` (x8:113-117). -/
def shuffleR_1 : Vec 8 := ofList 8 [1, 2, 3, 4, 5, 6, 7, 0]
@[inherit_doc shuffleR_1] def shuffleR_3 : Vec 8 := ofList 8 [3, 4, 5, 6, 7, 0, 1, 2]
@[inherit_doc shuffleR_1] def shuffleR_5 : Vec 8 := ofList 8 [5, 6, 7, 0, 1, 2, 3, 4]
@[inherit_doc shuffleR_1] def shuffleR_7 : Vec 8 := ofList 8 [7, 0, 1, 2, 3, 4, 5, 6]
@[inherit_doc shuffleR_1] def shufflePack : Vec 8 := ofList 8 [0, 2, 4, 6, 1, 3, 5, 7]

/-- `SHUFFLE_LANES_RIGHT` (x8:46), with the table for `n`. -/
def shuffleRight (a t : Vec 8) : Vec 8 := permutevar8x32 a t

/-- `SHUFFLE_LANES_RIGHT_2` (x8:47). -/
def shuffleRight2 (a : Vec 8) : Vec 8 := permute4x64 a 0x39

/-- `r04815926` and `r5926a37b`, also called `rCGKDHLEI` (x8:654). -/
structure Roll where
  r0 : Vec 8
  r5 : Vec 8

/-- The initial values (x8:634-635, 800-801). -/
def load (k32 : Bytes) : Option Roll := do
  let r0 ← gather k32 0 (ofList 8 [0, 4, 8, 1, 5, 9, 2, 6])
  let r5 ← gather k32 0 (ofList 8 [5, 9, 2, 6, 10, 3, 7, 11])
  some ⟨r0, r5⟩

/-- "Roll-c" (x8:658-677). -/
def rollc (r : Roll) : Vars (Vec 8) × Roll :=
  let a00 := r.r0
  let a01 := blendEpi32 (shuffleRight r.r0 shuffleR_3) (shuffleRight r.r5 shuffleR_7) 0xE0
  let a02 := shuffleRight2 r.r5
  let a12 := insertEpi32 (shuffleRight a00 shuffleR_1) (extractEpi32 a01 5) 7
  let rC := xor a00 (xor (slli a00 13) (rolOr a12 3))
  let a02 := blendEpi32 a02 (shuffleRight2 rC) 0xC0
  let a03 := blendEpi32 (shuffleRight a02 shuffleR_3) (shuffleRight rC shuffleR_5) 0xF8
  let a13 := insertEpi32 (shuffleRight a01 shuffleR_1) (extractEpi32 a02 5) 7
  let a10 := insertEpi32 (shuffleRight a02 shuffleR_1) (extractEpi32 rC 2) 7
  let a11 := insertEpi32 (shuffleRight a03 shuffleR_1) (extractEpi32 rC 5) 7
  let a20 := insertEpi32 (shuffleRight a12 shuffleR_1) (extractEpi32 a01 6) 7
  let a21 := insertEpi32 (shuffleRight a13 shuffleR_1) (extractEpi32 rC 0) 7
  let a22 := insertEpi32 (shuffleRight a10 shuffleR_1) (extractEpi32 rC 3) 7
  let a23 := insertEpi32 (shuffleRight a11 shuffleR_1) (extractEpi32 rC 6) 7
  (⟨![a00, a01, a02, a03], ![a10, a11, a12, a13], ![a20, a21, a22, a23]⟩, ⟨a22, rC⟩)

/-- "Roll-e" (x8:808-829). -/
def rolle (r : Roll) : Vars (Vec 8) × Roll :=
  let a00 := r.r0
  let a01 := blendEpi32 (shuffleRight r.r0 shuffleR_3) (shuffleRight r.r5 shuffleR_7) 0xE0
  let a02 := shuffleRight2 r.r5
  let a12 := insertEpi32 (shuffleRight a00 shuffleR_1) (extractEpi32 a01 5) 7
  let a20 := insertEpi32 (shuffleRight a12 shuffleR_1) (extractEpi32 a01 6) 7
  let rC := xor (rolOr a00 5) (rolOr a12 13)
  let rC := xor rC (and a20 a12)
  let rC := xor rC (set1 7)
  let a02 := blendEpi32 a02 (shuffleRight2 rC) 0xC0
  let a03 := blendEpi32 (shuffleRight a02 shuffleR_3) (shuffleRight rC shuffleR_5) 0xF8
  let a13 := insertEpi32 (shuffleRight a01 shuffleR_1) (extractEpi32 a02 5) 7
  let a10 := insertEpi32 (shuffleRight a02 shuffleR_1) (extractEpi32 rC 2) 7
  let a11 := insertEpi32 (shuffleRight a03 shuffleR_1) (extractEpi32 rC 5) 7
  let a21 := insertEpi32 (shuffleRight a13 shuffleR_1) (extractEpi32 rC 0) 7
  let a22 := insertEpi32 (shuffleRight a10 shuffleR_1) (extractEpi32 rC 3) 7
  let a23 := insertEpi32 (shuffleRight a11 shuffleR_1) (extractEpi32 rC 6) 7
  (⟨![a00, a01, a02, a03], ![a10, a11, a12, a13], ![a20, a21, a22, a23]⟩, ⟨a22, rC⟩)

/-- The reduction to `x00`, with 8 words, and to the low half of `x20`, with 4 words (x8:723-759). -/
def fold (x : Vars (Vec 8)) : Vec 8 × Vec 8 :=
  let x00 := xor (x.a0 0) (permute4x64 (x.a0 0) 0x4e)
  let x01 := xor (x.a0 1) (permute4x64 (x.a0 1) 0x4e)
  let x02 := xor (x.a0 2) (permute4x64 (x.a0 2) 0x4e)
  let x03 := xor (x.a0 3) (permute4x64 (x.a0 3) 0x4e)
  let x10 := xor (x.a1 0) (permute4x64 (x.a1 0) 0x4e)
  let x11 := xor (x.a1 1) (permute4x64 (x.a1 1) 0x4e)
  let x12 := xor (x.a1 2) (permute4x64 (x.a1 2) 0x4e)
  let x13 := xor (x.a1 3) (permute4x64 (x.a1 3) 0x4e)
  let x20 := xor (x.a2 0) (permute4x64 (x.a2 0) 0x4e)
  let x21 := xor (x.a2 1) (permute4x64 (x.a2 1) 0x4e)
  let x22 := xor (x.a2 2) (permute4x64 (x.a2 2) 0x4e)
  let x23 := xor (x.a2 3) (permute4x64 (x.a2 3) 0x4e)
  let x00 := permute2x128 x00 x10 0x20
  let x01 := permute2x128 x01 x11 0x20
  let x02 := permute2x128 x02 x12 0x20
  let x03 := permute2x128 x03 x13 0x20
  let x20 := permute2x128 x20 x22 0x20
  let x21 := permute2x128 x21 x23 0x20
  let x00 := xor x00 (permute4x64 x00 0xB1)
  let x01 := xor x01 (permute4x64 x01 0xB1)
  let x02 := xor x02 (permute4x64 x02 0xB1)
  let x03 := xor x03 (permute4x64 x03 0xB1)
  let x20 := xor x20 (permute4x64 x20 0xB1)
  let x21 := xor x21 (permute4x64 x21 0xB1)
  let x00 := blendEpi32 x00 x02 0xCC
  let x01 := blendEpi32 x01 x03 0xCC
  let x20 := blendEpi32 x20 x21 0xCC
  let x00 := xor x00 (shuffleRight x00 shuffleR_1)
  let x01 := xor x01 (shuffleRight x01 shuffleR_1)
  let x20 := xor x20 (shuffleRight x20 shuffleR_1)
  let x00 := blendEpi32 x00 (shuffleRight x01 shuffleR_7) 0xAA
  let x20 := permutevar8x32 x20 shufflePack
  (x00, x20)

/-- The reduction, with the loads and stores of `x32` (x8:723-765). -/
def reduce (x : Vars (Vec 8)) (x32 : Bytes) : Option Bytes := do
  let f := fold x
  let x0 ← loadVec 8 x32 (4 * 0)
  let x00 := xor f.1 x0
  let x8 ← loadVec 4 x32 (4 * 8)
  let x4 := xor (castLow f.2) x8
  let x32 ← storeVec x32 (4 * 0) x00
  storeVec x32 (4 * 8) x4

/-- The word of `rCGKDHLEI` or of `r04815926` stored in `k32[p]` (x8:768-779, 922-933). -/
def saved (r : Roll) (p : Nat) : Lane :=
  match p with
  | 0 => extractEpi32 r.r0 0 | 1 => extractEpi32 r.r0 3 | 2 => extractEpi32 r.r5 2 | 3 => extractEpi32 r.r5 5
  | 4 => extractEpi32 r.r0 1 | 5 => extractEpi32 r.r5 0 | 6 => extractEpi32 r.r5 3 | 7 => extractEpi32 r.r5 6
  | 8 => extractEpi32 r.r0 2 | 9 => extractEpi32 r.r5 1 | 10 => extractEpi32 r.r5 4 | _ => extractEpi32 r.r5 7

/-- "Save new k", "Save new y" (x8:767-779, 921-933). -/
def save (r : Roll) (k32 : Bytes) : Option Bytes :=
  seq (fun p k32 => storeWord k32 (4 * p) (saved r p)) [0, 1, 2, 3, 4, 5, 6, 7, 8, 9, 10, 11] k32

/-- The transposition of the 4 by 4 words in each half of four registers (x8:866-873, 875-882, 902-909). -/
def transpose (a0 a1 a2 a3 : Vec 8) : Vec 8 × Vec 8 × Vec 8 × Vec 8 :=
  let lanesL01 := unpacklo32 a0 a1
  let lanesH01 := unpackhi32 a0 a1
  let lanesL23 := unpacklo32 a2 a3
  let lanesH23 := unpackhi32 a2 a3
  (unpacklo64 lanesL01 lanesL23, unpackhi64 lanesL01 lanesL23, unpacklo64 lanesH01 lanesH23, unpackhi64 lanesH01 lanesH23)

/-- `_mm256_storeu2_m128i` (x8:68-70). -/
def storeu2 (out : Bytes) (hi lo : Nat) (a : Vec 8) : Option Bytes := do
  let out ← storeVec out lo (castLow a)
  storeVec out hi (extractHigh a)

/-- "Extract" (x8:854-913). -/
def extract (a : Vars (Vec 8)) (o32 : Bytes) : Option Bytes := do
  let (a00, a01, a02, a03) := transpose (a.a0 0) (a.a0 1) (a.a0 2) (a.a0 3)
  let (a10, a11, a12, a13) := transpose (a.a1 0) (a.a1 1) (a.a1 2) (a.a1 3)
  let o32 ← storeVec o32 (4 * (0 * 12 + 0)) (permute2x128 a00 a10 0x20)
  let o32 ← storeVec o32 (4 * (4 * 12 + 0)) (permute2x128 a00 a10 0x31)
  let o32 ← storeVec o32 (4 * (1 * 12 + 0)) (permute2x128 a01 a11 0x20)
  let o32 ← storeVec o32 (4 * (5 * 12 + 0)) (permute2x128 a01 a11 0x31)
  let o32 ← storeVec o32 (4 * (2 * 12 + 0)) (permute2x128 a02 a12 0x20)
  let o32 ← storeVec o32 (4 * (6 * 12 + 0)) (permute2x128 a02 a12 0x31)
  let o32 ← storeVec o32 (4 * (3 * 12 + 0)) (permute2x128 a03 a13 0x20)
  let o32 ← storeVec o32 (4 * (7 * 12 + 0)) (permute2x128 a03 a13 0x31)
  let (a20, a21, a22, a23) := transpose (a.a2 0) (a.a2 1) (a.a2 2) (a.a2 3)
  let o32 ← storeu2 o32 (4 * (4 * 12 + 8)) (4 * (0 * 12 + 8)) a20
  let o32 ← storeu2 o32 (4 * (5 * 12 + 8)) (4 * (1 * 12 + 8)) a21
  let o32 ← storeu2 o32 (4 * (6 * 12 + 8)) (4 * (2 * 12 + 8)) a22
  storeu2 o32 (4 * (7 * 12 + 8)) (4 * (3 * 12 + 8)) a23

end Avx2

/-- The functions of `x8`. -/
def avx2 : Fast 8 where
  Roll := Avx2.Roll
  load := Avx2.load
  rollc := Avx2.rollc
  rolle := Avx2.rolle
  rounds := rounds6 (XoodooSimd.round XoodooSimd.ops8)
  reduce := Avx2.reduce
  save := Avx2.save
  extract := Avx2.extract

/-! ### AVX-512 -/

/-- `XOR3` (x16:275, y8:459, y4:459). -/
def xor3 (a b c : Vec N) : Vec N := ternarylogic a b c 0x96

/-- `XOR(permutex2var(a, v1, b), permutex2var(a, v2, b))`. -/
def halve (v1 v2 a b : Vec N) : Vec N := xor (permutex2var a v1 b) (permutex2var a v2 b)

/-- "load xAccu, xor and store 12 lanes" (x16:940-943, y8:1112-1114, y4:1094-1096). -/
def addTo (x00 : Vec 16) (x32 : Bytes) : Option Bytes := do
  let x01 ← maskzLoad64 0x3F x32 0
  maskStore64 0x3F x32 0 (xor x00 x01)

/-- "Extract" (x16:1018-1030, y8:1190-1202, y4:1176-1188). -/
def extract512 (a : Vars (Vec N)) (o32 : Bytes) : Option Bytes :=
  seq (fun p o32 => scatter (2 ^ N - 1) o32 (4 * p) (offsets N 12) (a.get p)) [0, 1, 2, 3, 4, 5, 6, 7, 8, 9, 10, 11] o32

namespace X16

/-- The tables (x16:341-372). -/
def oshuffleR_1 : Vec 16 := ofList 16 [1, 2, 3, 4, 5, 6, 7, 8, 9, 10, 11, 12, 13, 14, 15, 0]
@[inherit_doc oshuffleR_1] def oshuffleR_2 : Vec 16 := ofList 16 [2, 3, 4, 5, 6, 7, 8, 9, 10, 11, 12, 13, 14, 15, 0, 1]
@[inherit_doc oshuffleR_1] def oshuffleR_4 : Vec 16 := ofList 16 [4, 5, 6, 7, 8, 9, 10, 11, 12, 13, 14, 15, 0, 1, 2, 3]
@[inherit_doc oshuffleR_1] def oAllLow12_0 : Vec 16 :=
  ofList 16 [0, 1, 2, 3, 4, 5, 6, 7, 8, 9, 10, 11, 16+0, 16+1, 16+2, 16+3]
@[inherit_doc oshuffleR_1] def oAllLow11_0 : Vec 16 :=
  ofList 16 [0, 1, 2, 3, 4, 5, 6, 7, 8, 9, 10, 16+0, 16+1, 16+2, 16+3, 16+4]
@[inherit_doc oshuffleR_1] def oAllLow10_0 : Vec 16 :=
  ofList 16 [0, 1, 2, 3, 4, 5, 6, 7, 8, 9, 16+0, 16+1, 16+2, 16+3, 16+4, 16+5]
@[inherit_doc oshuffleR_1] def oAllFrom1_7 : Vec 16 := ofList 16 [1, 2, 3, 4, 5, 6, 7, 8, 9, 10, 11, 12, 13, 14, 15, 16+7]
@[inherit_doc oshuffleR_1] def oAllFrom1_10 : Vec 16 := ofList 16 [1, 2, 3, 4, 5, 6, 7, 8, 9, 10, 11, 12, 13, 14, 15, 16+10]
@[inherit_doc oshuffleR_1] def oAllFrom1_13 : Vec 16 := ofList 16 [1, 2, 3, 4, 5, 6, 7, 8, 9, 10, 11, 12, 13, 14, 15, 16+13]
@[inherit_doc oshuffleR_1] def oAllFrom1_5 : Vec 16 := ofList 16 [1, 2, 3, 4, 5, 6, 7, 8, 9, 10, 11, 12, 13, 14, 15, 16+5]
@[inherit_doc oshuffleR_1] def oAllFrom1_8 : Vec 16 := ofList 16 [1, 2, 3, 4, 5, 6, 7, 8, 9, 10, 11, 12, 13, 14, 15, 16+8]
@[inherit_doc oshuffleR_1] def oAllFrom1_11 : Vec 16 := ofList 16 [1, 2, 3, 4, 5, 6, 7, 8, 9, 10, 11, 12, 13, 14, 15, 16+11]
@[inherit_doc oshuffleR_1] def oAllFrom1_14 : Vec 16 := ofList 16 [1, 2, 3, 4, 5, 6, 7, 8, 9, 10, 11, 12, 13, 14, 15, 16+14]
@[inherit_doc oshuffleR_1] def oAllFrom3_4 : Vec 16 :=
  ofList 16 [3, 4, 5, 6, 7, 8, 9, 10, 11, 12, 13, 14, 15, 16+4, 16+5, 16+6]
@[inherit_doc oshuffleR_1] def oAllFrom6_4 : Vec 16 :=
  ofList 16 [6, 7, 8, 9, 10, 11, 12, 13, 14, 15, 16+4, 16+5, 16+6, 16+7, 16+8, 16+9]
@[inherit_doc oshuffleR_1] def oAllFrom9_4 : Vec 16 :=
  ofList 16 [9, 10, 11, 12, 13, 14, 15, 16+4, 16+5, 16+6, 16+7, 16+8, 16+9, 16+10, 16+11, 16+12]
@[inherit_doc oshuffleR_1] def oLow256 : Vec 16 :=
  ofList 16 [0, 1, 2, 3, 4, 5, 6, 7, 16+0, 16+1, 16+2, 16+3, 16+4, 16+5, 16+6, 16+7]
@[inherit_doc oshuffleR_1] def oHigh256 : Vec 16 :=
  ofList 16 [8, 9, 10, 11, 12, 13, 14, 15, 16+8, 16+9, 16+10, 16+11, 16+12, 16+13, 16+14, 16+15]
@[inherit_doc oshuffleR_1] def oLow128 : Vec 16 :=
  ofList 16 [0, 1, 2, 3, 16+0, 16+1, 16+2, 16+3, 8, 9, 10, 11, 16+8, 16+9, 16+10, 16+11]
@[inherit_doc oshuffleR_1] def oHigh128 : Vec 16 :=
  ofList 16 [4, 5, 6, 7, 16+4, 16+5, 16+6, 16+7, 12, 13, 14, 15, 16+12, 16+13, 16+14, 16+15]
@[inherit_doc oshuffleR_1] def oLow64 : Vec 16 :=
  ofList 16 [0, 1, 4, 5, 16+0, 16+1, 16+4, 16+5, 8, 9, 12, 13, 16+8, 16+9, 16+12, 16+13]
@[inherit_doc oshuffleR_1] def oHigh64 : Vec 16 :=
  ofList 16 [2, 3, 6, 7, 16+2, 16+3, 16+6, 16+7, 10, 11, 14, 15, 16+10, 16+11, 16+14, 16+15]
@[inherit_doc oshuffleR_1] def oLow32 : Vec 16 :=
  ofList 16 [0, 4, 2, 6, 8, 12, 10, 14, 16+0, 16+2, 16+8, 16+10, 0, 0, 0, 0]
@[inherit_doc oshuffleR_1] def oHigh32 : Vec 16 :=
  ofList 16 [1, 5, 3, 7, 9, 13, 11, 15, 16+1, 16+3, 16+9, 16+11, 0, 0, 0, 0]

/-- `oGatherScatterOffsetsRoll` (x16:376). -/
def offsetsRoll : Vec 16 := ofList 16 [0, 0, 0, 0, 0, 4, 8, 1, 5, 9, 2, 6, 10, 3, 7, 11]

/-- `rCGKDHLEIcgkdhlei` (x16:832, 963). -/
def load (k32 : Bytes) : Option (Vec 16) := gather k32 0 offsetsRoll

/-- "Roll-c" (x16:849-871). -/
def rollc (r : Vec 16) : Vars (Vec 16) × Vec 16 :=
  let a00 := permutexvar oshuffleR_4 r
  let a12 := permutexvar oshuffleR_1 a00
  let r := xor3 a00 (slli a00 13) (roti a12 3)
  let a00 := permutex2var a00 oAllLow12_0 r
  let a12 := permutex2var a12 oAllLow11_0 r
  let r := xor3 a00 (slli a00 13) (roti a12 3)
  let a01 := permutex2var a00 oAllFrom3_4 r
  let a02 := permutex2var a00 oAllFrom6_4 r
  let a03 := permutex2var a00 oAllFrom9_4 r
  let a13 := permutex2var a01 oAllFrom1_7 r
  let a10 := permutex2var a02 oAllFrom1_10 r
  let a11 := permutex2var a03 oAllFrom1_13 r
  let a20 := permutex2var a12 oAllFrom1_5 r
  let a21 := permutex2var a13 oAllFrom1_8 r
  let a22 := permutex2var a10 oAllFrom1_11 r
  let a23 := permutex2var a11 oAllFrom1_14 r
  (⟨![a00, a01, a02, a03], ![a10, a11, a12, a13], ![a20, a21, a22, a23]⟩, r)

/-- "Roll-e" (x16:968-994). -/
def rolle (r : Vec 16) : Vars (Vec 16) × Vec 16 :=
  let a00 := permutexvar oshuffleR_4 r
  let a12 := permutexvar oshuffleR_1 a00
  let a20 := permutexvar oshuffleR_2 a00
  let a23 := and a20 a12
  let r := xor3 (roti a00 5) (roti a12 13) a23
  let r := xor r (set1 7)
  let a00 := permutex2var a00 oAllLow12_0 r
  let a12 := permutex2var a12 oAllLow11_0 r
  let a20 := permutex2var a20 oAllLow10_0 r
  let a23 := and a20 a12
  let r := xor3 (roti a00 5) (roti a12 13) a23
  let r := xor r (set1 7)
  let a01 := permutex2var a00 oAllFrom3_4 r
  let a02 := permutex2var a00 oAllFrom6_4 r
  let a03 := permutex2var a00 oAllFrom9_4 r
  let a13 := permutex2var a01 oAllFrom1_7 r
  let a10 := permutex2var a02 oAllFrom1_10 r
  let a11 := permutex2var a03 oAllFrom1_13 r
  let a21 := permutex2var a13 oAllFrom1_8 r
  let a22 := permutex2var a10 oAllFrom1_11 r
  let a23 := permutex2var a11 oAllFrom1_14 r
  (⟨![a00, a01, a02, a03], ![a10, a11, a12, a13], ![a20, a21, a22, a23]⟩, r)

/-- The reduction to the low 12 words of `x00` (x16:914-938). -/
def fold (x : Vars (Vec 16)) : Vec 16 :=
  let x00 := halve oLow256 oHigh256 (x.a0 0) (x.a1 0)
  let x01 := halve oLow256 oHigh256 (x.a0 1) (x.a1 1)
  let x02 := halve oLow256 oHigh256 (x.a0 2) (x.a1 2)
  let x03 := halve oLow256 oHigh256 (x.a0 3) (x.a1 3)
  let x20 := halve oLow256 oHigh256 (x.a2 0) (x.a2 2)
  let x21 := halve oLow256 oHigh256 (x.a2 1) (x.a2 3)
  let x00 := halve oLow128 oHigh128 x00 x02
  let x01 := halve oLow128 oHigh128 x01 x03
  let x20 := halve oLow128 oHigh128 x20 x21
  let x00 := halve oLow64 oHigh64 x00 x01
  let x20 := halve oLow64 oHigh64 x20 x20
  halve oLow32 oHigh32 x00 x20

/-- "Save new k", "Save new y" (x16:947, 1038). -/
def save (r : Vec 16) (k32 : Bytes) : Option Bytes := scatter 0xFFF0 k32 0 offsetsRoll r

end X16

/-- The functions of `x16`. -/
def x16 : Fast 16 where
  Roll := Vec 16
  load := X16.load
  rollc := X16.rollc
  rolle := X16.rolle
  rounds := rounds6 (XoodooSimd.round512 XoodooSimd.ops512)
  reduce x x32 := addTo (X16.fold x) x32
  save := X16.save
  extract := extract512

namespace Y8

/-- The tables (y8:523-545). -/
def oAllFrom1_0 : Vec 8 := ofList 8 [1, 2, 3, 4, 5, 6, 7, 8+0]
@[inherit_doc oAllFrom1_0] def oAllFrom1_2 : Vec 8 := ofList 8 [1, 2, 3, 4, 5, 6, 7, 8+2]
@[inherit_doc oAllFrom1_0] def oAllFrom1_3 : Vec 8 := ofList 8 [1, 2, 3, 4, 5, 6, 7, 8+3]
@[inherit_doc oAllFrom1_0] def oAllFrom1_4 : Vec 8 := ofList 8 [1, 2, 3, 4, 5, 6, 7, 8+4]
@[inherit_doc oAllFrom1_0] def oAllFrom1_5 : Vec 8 := ofList 8 [1, 2, 3, 4, 5, 6, 7, 8+5]
@[inherit_doc oAllFrom1_0] def oAllFrom1_6 : Vec 8 := ofList 8 [1, 2, 3, 4, 5, 6, 7, 8+6]
@[inherit_doc oAllFrom1_0] def oAllFrom2_0 : Vec 8 := ofList 8 [2, 3, 4, 5, 6, 7, 8+0, 8+1]
@[inherit_doc oAllFrom1_0] def oAllFrom2_4 : Vec 8 := ofList 8 [2, 3, 4, 5, 6, 7, 8+4, 8+5]
@[inherit_doc oAllFrom1_0] def oAllFrom3_2 : Vec 8 := ofList 8 [3, 4, 5, 6, 7, 8+2, 8+3, 8+4]
@[inherit_doc oAllFrom1_0] def oAllFrom3_4 : Vec 8 := ofList 8 [3, 4, 5, 6, 7, 8+4, 8+5, 8+6]
@[inherit_doc oAllFrom1_0] def oLow128 : Vec 8 := ofList 8 [0, 1, 2, 3, 8+0, 8+1, 8+2, 8+3]
@[inherit_doc oAllFrom1_0] def oHigh128 : Vec 8 := ofList 8 [4, 5, 6, 7, 8+4, 8+5, 8+6, 8+7]
@[inherit_doc oAllFrom1_0] def oLow64 : Vec 8 := ofList 8 [0, 1, 8+0, 8+1, 4, 5, 8+4, 8+5]
@[inherit_doc oAllFrom1_0] def oHigh64 : Vec 8 := ofList 8 [2, 3, 8+2, 8+3, 6, 7, 8+6, 8+7]
@[inherit_doc oAllFrom1_0] def oLow32 : Vec 8 := ofList 8 [0, 8+0, 2, 8+2, 4, 8+4, 6, 8+6]
@[inherit_doc oAllFrom1_0] def oHigh32 : Vec 8 := ofList 8 [1, 8+1, 3, 8+3, 5, 8+5, 7, 8+7]
@[inherit_doc oAllFrom1_0] def oLow32_4 : Vec 8 := ofList 8 [0, 2, 4, 6, 0, 2, 4, 6]
@[inherit_doc oAllFrom1_0] def oHigh32_4 : Vec 8 := ofList 8 [1, 3, 5, 7, 0, 2, 4, 6]

/-- `r04815926` and `r5926a37b`, also called `rCGKDHLEI` (y8:1022). -/
structure Roll where
  r0 : Vec 8
  r5 : Vec 8

/-- The initial values (y8:1003-1004, 1136-1137). -/
def load (k32 : Bytes) : Option Roll := do
  let r0 ← gather k32 0 (ofList 8 [0, 4, 8, 1, 5, 9, 2, 6])
  let r5 ← gather k32 0 (ofList 8 [5, 9, 2, 6, 10, 3, 7, 11])
  some ⟨r0, r5⟩

/-- "Roll-c" (y8:1024-1045). -/
def rollc (r : Roll) : Vars (Vec 8) × Roll :=
  let a00 := r.r0
  let a02 := r.r5
  let a01 := permutex2var a00 oAllFrom3_4 r.r5
  let a12 := permutex2var a00 oAllFrom1_4 r.r5
  let rC := xor3 a00 (slli a00 13) (roti a12 3)
  let a02 := permutex2var a02 oAllFrom2_0 rC
  let a03 := permutex2var a02 oAllFrom3_2 rC
  let a13 := permutex2var a01 oAllFrom1_5 a02
  let a10 := permutex2var a02 oAllFrom1_2 rC
  let a11 := permutex2var a03 oAllFrom1_5 rC
  let a20 := permutex2var a12 oAllFrom1_0 a03
  let a21 := permutex2var a13 oAllFrom1_0 rC
  let a22 := permutex2var a10 oAllFrom1_3 rC
  let a23 := permutex2var a11 oAllFrom1_6 rC
  (⟨![a00, a01, a02, a03], ![a10, a11, a12, a13], ![a20, a21, a22, a23]⟩, ⟨a22, rC⟩)

/-- "Roll-e" (y8:1144-1166). -/
def rolle (r : Roll) : Vars (Vec 8) × Roll :=
  let a00 := r.r0
  let a02 := r.r5
  let a01 := permutex2var a00 oAllFrom3_4 r.r5
  let a12 := permutex2var a00 oAllFrom1_4 r.r5
  let a20 := permutex2var a00 oAllFrom2_4 r.r5
  let rC := xor3 (roti a00 5) (roti a12 13) (and a20 a12)
  let rC := xor rC (set1 7)
  let a02 := permutex2var a02 oAllFrom2_0 rC
  let a03 := permutex2var a02 oAllFrom3_2 rC
  let a13 := permutex2var a01 oAllFrom1_5 a02
  let a10 := permutex2var a02 oAllFrom1_2 rC
  let a11 := permutex2var a03 oAllFrom1_5 rC
  let a21 := permutex2var a13 oAllFrom1_0 rC
  let a22 := permutex2var a10 oAllFrom1_3 rC
  let a23 := permutex2var a11 oAllFrom1_6 rC
  (⟨![a00, a01, a02, a03], ![a10, a11, a12, a13], ![a20, a21, a22, a23]⟩, ⟨a22, rC⟩)

/-- The reduction to `x512` (y8:1088-1110). -/
def fold (x : Vars (Vec 8)) : Vec 16 :=
  let x00 := halve oLow128 oHigh128 (x.a0 0) (x.a1 0)
  let x01 := halve oLow128 oHigh128 (x.a0 1) (x.a1 1)
  let x02 := halve oLow128 oHigh128 (x.a0 2) (x.a1 2)
  let x03 := halve oLow128 oHigh128 (x.a0 3) (x.a1 3)
  let x20 := halve oLow128 oHigh128 (x.a2 0) (x.a2 2)
  let x21 := halve oLow128 oHigh128 (x.a2 1) (x.a2 3)
  let x00 := halve oLow64 oHigh64 x00 x02
  let x01 := halve oLow64 oHigh64 x01 x03
  let x20 := halve oLow64 oHigh64 x20 x21
  let x00 := halve oLow32 oHigh32 x00 x01
  let x20 := halve oLow32_4 oHigh32_4 x20 x20
  join x00 x20

/-- "Save new k", "Save new y" (y8:1118-1119, 1210-1211). -/
def save (r : Roll) (k32 : Bytes) : Option Bytes := do
  let k32 ← scatter 0xFF k32 0 (ofList 8 [0, 4, 8, 1, 5, 9, 2, 6]) r.r0
  scatter 0xF0 k32 0 (ofList 8 [0, 0, 0, 0, 10, 3, 7, 11]) r.r5

end Y8

/-- The functions of `y8`. -/
def y8 : Fast 8 where
  Roll := Y8.Roll
  load := Y8.load
  rollc := Y8.rollc
  rolle := Y8.rolle
  rounds := rounds6 (XoodooSimd.round512 XoodooSimd.ops512)
  reduce x x32 := addTo (Y8.fold x) x32
  save := Y8.save
  extract := extract512

namespace Y4

/-- The tables (y4:518-526). -/
def oAllFrom1_0 : Vec 4 := ofList 4 [1, 2, 3, 4+0]
@[inherit_doc oAllFrom1_0] def oAllFrom2_0 : Vec 4 := ofList 4 [2, 3, 4+0, 4+1]
@[inherit_doc oAllFrom1_0] def oAllFrom3_0 : Vec 4 := ofList 4 [3, 4+0, 4+1, 4+2]
@[inherit_doc oAllFrom1_0] def oLow64 : Vec 4 := ofList 4 [0, 1, 4+0, 4+1]
@[inherit_doc oAllFrom1_0] def oHigh64 : Vec 4 := ofList 4 [2, 3, 4+2, 4+3]
@[inherit_doc oAllFrom1_0] def oLow32 : Vec 4 := ofList 4 [0, 4+0, 2, 4+2]
@[inherit_doc oAllFrom1_0] def oHigh32 : Vec 4 := ofList 4 [1, 4+1, 3, 4+3]

/-- `r0481`, `r5926` and `ra37b`, also called `rCGKD` (y4:1005). -/
structure Roll where
  r0 : Vec 4
  r5 : Vec 4
  ra : Vec 4

/-- The initial values (y4:985-987, 1120-1122). -/
def load (k32 : Bytes) : Option Roll := do
  let r0 ← gather k32 0 (ofList 4 [0, 4, 8, 1])
  let r5 ← gather k32 0 (ofList 4 [5, 9, 2, 6])
  let ra ← gather k32 0 (ofList 4 [10, 3, 7, 11])
  some ⟨r0, r5, ra⟩

/-- "Roll-c" (y4:1007-1028). -/
def rollc (r : Roll) : Vars (Vec 4) × Roll :=
  let a00 := r.r0
  let a13 := r.r5
  let a22 := r.ra
  let a12 := permutex2var a00 oAllFrom1_0 r.r5
  let r0 := r.r5
  let r5 := r.ra
  let rC := xor3 a00 (slli a00 13) (roti a12 3)
  let a01 := permutex2var a00 oAllFrom3_0 a13
  let a02 := permutex2var a13 oAllFrom2_0 a22
  let a03 := permutex2var a22 oAllFrom1_0 rC
  let a10 := permutex2var a13 oAllFrom3_0 a22
  let a11 := permutex2var a22 oAllFrom2_0 rC
  let a20 := permutex2var a00 oAllFrom2_0 a13
  let a21 := permutex2var a13 oAllFrom1_0 a22
  let a23 := permutex2var a22 oAllFrom3_0 rC
  (⟨![a00, a01, a02, a03], ![a10, a11, a12, a13], ![a20, a21, a22, a23]⟩, ⟨r0, r5, rC⟩)

/-- "Roll-e" (y4:1130-1152). -/
def rolle (r : Roll) : Vars (Vec 4) × Roll :=
  let a00 := r.r0
  let a13 := r.r5
  let a22 := r.ra
  let a12 := permutex2var a00 oAllFrom1_0 r.r5
  let a20 := permutex2var a00 oAllFrom2_0 a13
  let r0 := r.r5
  let r5 := r.ra
  let rC := xor3 (roti a00 5) (roti a12 13) (and a20 a12)
  let rC := xor rC (set1 7)
  let a01 := permutex2var a00 oAllFrom3_0 a13
  let a02 := permutex2var a13 oAllFrom2_0 a22
  let a03 := permutex2var a22 oAllFrom1_0 rC
  let a10 := permutex2var a13 oAllFrom3_0 a22
  let a11 := permutex2var a22 oAllFrom2_0 rC
  let a21 := permutex2var a13 oAllFrom1_0 a22
  let a23 := permutex2var a22 oAllFrom3_0 rC
  (⟨![a00, a01, a02, a03], ![a10, a11, a12, a13], ![a20, a21, a22, a23]⟩, ⟨r0, r5, rC⟩)

/-- The reduction to `x512` (y4:1071-1092); `junk` is the high half of `_mm256_castsi128_si256(x20)`, which is undefined. -/
def fold (junk : Vec 4) (x : Vars (Vec 4)) : Vec 16 :=
  let x00 := halve oLow64 oHigh64 (x.a0 0) (x.a0 2)
  let x01 := halve oLow64 oHigh64 (x.a0 1) (x.a0 3)
  let x10 := halve oLow64 oHigh64 (x.a1 0) (x.a1 2)
  let x11 := halve oLow64 oHigh64 (x.a1 1) (x.a1 3)
  let x20 := halve oLow64 oHigh64 (x.a2 0) (x.a2 2)
  let x21 := halve oLow64 oHigh64 (x.a2 1) (x.a2 3)
  let x00 := halve oLow32 oHigh32 x00 x01
  let x10 := halve oLow32 oHigh32 x10 x11
  let x20 := halve oLow32 oHigh32 x20 x21
  let x256 := join x00 x10
  join x256 (join x20 junk)

/-- "Save new k", "Save new y" (y4:1100-1102, 1196-1198). -/
def save (r : Roll) (k32 : Bytes) : Option Bytes := do
  let k32 ← scatter 0xF k32 0 (ofList 4 [0, 4, 8, 1]) r.r0
  let k32 ← scatter 0xF k32 0 (ofList 4 [5, 9, 2, 6]) r.r5
  scatter 0xF k32 0 (ofList 4 [10, 3, 7, 11]) r.ra

end Y4

/-- The functions of `y4`. -/
def y4 (junk : Vec 4) : Fast 4 where
  Roll := Y4.Roll
  load := Y4.load
  rollc := Y4.rollc
  rolle := Y4.rolle
  rounds := rounds6 (XoodooSimd.round512 XoodooSimd.ops512)
  reduce x x32 := addTo (Y4.fold junk x) x32
  save := Y4.save
  extract := extract512

/-! ### `AddIs` -/

/-- `while (byteLen >= step) { ...; input += step; output += step; byteLen -= step; }`: `body` gives the buffer `output` after the stores;
the result has the bytes written, and `output`, `input` and `byteLen` after the loop (x8:569-589, 590-598, x16:780-792, 793-801,
y8:949-961, 962-970, y4:929-941, 942-950). -/
def addLoop (step : Nat) (body : Bytes → Bytes → Option Bytes) : Nat → Bytes → Bytes → Nat → Option (Bytes × Bytes × Bytes × Nat)
  | 0, _, _, _ => none
  | fuel + 1, output, input, byteLen =>
    if byteLen ≥ step then do
      let output ← body output input
      let (o, t, s, n) ← addLoop step body fuel (output.drop step) (input.drop step) (byteLen - step)
      some (output.take step ++ o, t, s, n)
    else some ([], output, input, byteLen)

/-- The first loop in AVX2: four registers (x8:570-585). -/
def add128 (output input : Bytes) : Option Bytes := do
  let lanes1 ← loadVec 8 input (4 * 0)
  let lanes2 ← loadVec 8 input (4 * 8)
  let lanes3 ← loadVec 8 input (4 * 16)
  let lanes4 ← loadVec 8 input (4 * 24)
  let lanes5 ← loadVec 8 output (4 * 0)
  let lanes6 ← loadVec 8 output (4 * 8)
  let lanes7 ← loadVec 8 output (4 * 16)
  let lanes8 ← loadVec 8 output (4 * 24)
  let output ← storeVec output (4 * 0) (xor lanes1 lanes5)
  let output ← storeVec output (4 * 8) (xor lanes2 lanes6)
  let output ← storeVec output (4 * 16) (xor lanes3 lanes7)
  storeVec output (4 * 24) (xor lanes4 lanes8)

/-- The first loop in AVX-512: two registers (x16:781-788, y8:950-957, y4:930-937). -/
def add128' (output input : Bytes) : Option Bytes := do
  let lanes1 ← loadVec 16 input (4 * 0)
  let lanes2 ← loadVec 16 input (4 * 16)
  let lanes3 ← loadVec 16 output (4 * 0)
  let lanes4 ← loadVec 16 output (4 * 16)
  let output ← storeVec output (4 * 0) (xor lanes1 lanes3)
  storeVec output (4 * 16) (xor lanes2 lanes4)

/-- The second loop: one register (x8:591-596, x16:794-799, y8:963-968, y4:943-948). -/
def add32 (output input : Bytes) : Option Bytes := do
  let lanesA ← loadVec 8 input (4 * 0)
  let lanesB ← loadVec 8 output (4 * 0)
  storeVec output (4 * 0) (xor lanesA lanesB)

/-- `Xooffftimes8_AddIs` (x8:564-615, y8:943-987), `Xooffftimes16_AddIs` (x16:774-818), `Xooffftimes4_AddIs` (y4:923-967) and the
`Xoofff_AddIs` of AVX512/Xoodoo-SIMD512.c:423-468, which has the same text; `big` is the body of the first loop.  The
last two loops and the treatment of the last byte have the text of `Xoofff_AddIs` (`Farfalle.xorLoop`).  The result is the buffer `output`
afterwards. -/
def addIs (big : Bytes → Bytes → Option Bytes) (output input : Bytes) (bitLen : Nat) : Option Bytes := do
  let (o1, t, s, n) ← addLoop 128 big (bitLen / 8 + 1) output input (bitLen / 8)
  let (o2, t, s, n) ← addLoop 32 add32 (n + 1) t s n
  let (o3, t, s, n) ← Farfalle.xorLoop 8 (n + 1) t s n
  let (o4, t, s, _) ← Farfalle.xorLoop 1 (n + 1) t s n
  if bitLen % 8 ≠ 0 then do
    let a ← t.head?
    let b ← s.head?
    some (o1 ++ o2 ++ o3 ++ o4 ++ [(a ^^^ b) &&& BitVec.ofNat 8 (2 ^ (bitLen % 8) - 1)] ++ t.drop 1)
  else some (o1 ++ o2 ++ o3 ++ o4 ++ t)

end XoofffSimd
