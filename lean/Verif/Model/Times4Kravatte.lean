import Verif.Model.Times4

/-!
# The functions for Kravatte of the four-way AVX2 implementation

Models `KeccakP1600times4_KravatteCompress` and `KeccakP1600times4_KravatteExpand` of
`lib/low/KeccakP-1600-times4/AVX2/KeccakP-1600-times4-SIMD256.c` (cited by line number).

* The arrays of 25 `uint64_t` are lists of 200 bytes; `xAccu`, `kRoll`, `yAccu`, `input` and `output` do not overlap.
* `Arch.i386` says whether `__i386__` (or `_M_IX86`) is defined; then `size_t` has 32 bits and the file has its own
  `_mm256_extract_epi64`.
* `Arch.gather` says whether `UseGatherScatter` is defined, which is commented out in line 38.  The version of `ExtrAddKey4` for it is in
  `#if 0`.
* After `ExtrAccu4` and `ExtrAddKey4` the registers `Aba`, ... hold scratch values; the next iteration assigns all of them before it reads
  them, and so only `Eba`, ... and `Ca`, ... are kept from one iteration to the next.
-/

namespace Times4

open KeccakP1600 (Lane)
open KeccakP1600.Opt64 (Unrolling)
open Simd

/-- What the preprocessor sees (38, 1130, 1157, 1317, 1325). -/
structure Arch where
  i386 : Bool
  gather : Bool

/-- One more than the largest `size_t`. -/
def Arch.sizeT (a : Arch) : Nat := if a.i386 then 2 ^ 32 else 2 ^ 64

/-- `_mm256_extract_epi64(a, index)`: the intrinsic, or on i386 the macro of lines 1157-1160, which has the logical operator `||`. -/
def extract64 (a : Arch) (v : Vec 4) (index : Nat) : Lane :=
  if a.i386 then
    if (extractEpi32 v (index * 2)).signExtend 64 ≠ (0 : Lane) ∨ (extractEpi32 v (index * 2 + 1)).signExtend 64 <<< 32 ≠ (0 : Lane) then 1
    else 0
  else extractEpi64 v index

/-- `_mm256_i32gather_epi64(base, gather, 1)` with `gather = (0*25*8, 1*25*8, 2*25*8, 3*25*8)` (1133-1136, 1196). -/
def gather4 (inp : Bytes) (base : Nat) : Option (Vec 4) := do
  let w0 ← loadWord inp (base + 0 * 25 * 8)
  let w1 ← loadWord inp (base + 1 * 25 * 8)
  let w2 ← loadWord inp (base + 2 * 25 * 8)
  let w3 ← loadWord inp (base + 3 * 25 * 8)
  some (set4 w3 w2 w1 w0)

/-- `AddOverWr4`, the first four or five lines, with `INTLEAVEa` (1115-1123, 1133-1136, 1146-1150). -/
def fetch4 (a : Arch) (inp : Bytes) (i : Nat) : Option Four :=
  if a.gather then do
    let l0 ← gather4 inp (8 * (i + 0))
    let l1 ← gather4 inp (8 * (i + 1))
    let l2 ← gather4 inp (8 * (i + 2))
    let l3 ← gather4 inp (8 * (i + 3))
    some ⟨l0, l1, l2, l3⟩
  else do
    let l0 ← loadVec 4 inp (8 * (i + 0 * 25))
    let l1 ← loadVec 4 inp (8 * (i + 1 * 25))
    let l2 ← loadVec 4 inp (8 * (i + 2 * 25))
    let l3 ← loadVec 4 inp (8 * (i + 3 * 25))
    some (intleave ⟨l0, l1, l2, l3⟩)

/-- `XOReq256(lanes0, CONST256_64(key[i+0]))`, ..., `XOReq256(lanes3, CONST256_64(key[i+3]))` (1137-1140, 1150-1153, 1259-1262). -/
def addKey4 (key : Bytes) (i : Nat) (l : Four) : Option Four := do
  let k0 ← loadWord key (8 * (i + 0))
  let k1 ← loadWord key (8 * (i + 1))
  let k2 ← loadWord key (8 * (i + 2))
  let k3 ← loadWord key (8 * (i + 3))
  some ⟨xor l.l0 (set1 k0), xor l.l1 (set1 k1), xor l.l2 (set1 k2), xor l.l3 (set1 k3)⟩

/-- `AddOverWr4` (1132-1154). -/
def addOverWr4 (a : Arch) (key inp : Bytes) (i : Nat) : Option Four := do
  let l ← fetch4 a inp i
  addKey4 key i l

/-- `LoadXOReq256` (1126). -/
def loadXOReq (lanes : Vec 4) (inp : Bytes) (i : Nat) : Option (Vec 4) := do
  let w3 ← loadWord inp (8 * (3 * 25 + i))
  let w2 ← loadWord inp (8 * (2 * 25 + i))
  let w1 ← loadWord inp (8 * (1 * 25 + i))
  let w0 ← loadWord inp (8 * (0 * 25 + i))
  some (xor lanes (set4 w3 w2 w1 w0))

/-- `ExtrAccu` (1162-1163). -/
def extrAccu (a : Arch) (lanes : Vec 4) (i : Nat) (p : Bytes) : Option Bytes := do
  let x ← loadWord p (8 * i)
  storeWord p (8 * i) (x ^^^ (extract64 a lanes 0 ^^^ extract64 a lanes 1 ^^^ extract64 a lanes 2 ^^^ extract64 a lanes 3))

/-- `ExtrAccu4` (1165-1172). -/
def extrAccu4 (l : Four) (i : Nat) (p : Bytes) : Option Bytes := do
  let u := unintleave l
  let lanes0 := xor u.l0 u.l1
  let lanes2 := xor u.l2 u.l3
  let lanes1 ← loadVec 4 p (8 * i)
  let lanes0 := xor lanes0 lanes2
  let lanes0 := xor lanes0 lanes1
  storeVec p (8 * i) lanes0

/-- The two registers that hold the rolling words of the key, `x0x1x2x3` and `x1x2x3x4` (1194). -/
structure Roll where
  (lo hi : Vec 4)

/-- What `Kravatte_Rollc` leaves in `Asa`, ..., `Asu` and in the two registers (1174-1183). -/
def kravatteRollc (r : Roll) : (Vec 4 × Vec 4 × Vec 4 × Vec 4 × Vec 4) × Roll :=
  let Asa := r.lo
  let Ase := r.hi
  let x1x2x3x4 := or (slli r.lo 7) (srli r.lo (64 - 7))
  let x1x2x3x4 := xor x1x2x3x4 Ase
  let x1x2x3x4 := xor x1x2x3x4 (srli Ase 3)
  let Asi := blendEpi32 (permute4x64 Ase 0x39) (permute4x64 x1x2x3x4 0x39) 0xC0
  let Aso := permute2x128 Ase x1x2x3x4 0x21
  let Asu := blendEpi32 (permute4x64 Ase 0xFF) (permute4x64 x1x2x3x4 0x90) 0xFC
  ((Asa, Ase, Asi, Aso, Asu), ⟨Asu, x1x2x3x4⟩)

/-- The registers before `rounds6` in `KravatteCompress`, and the rolled words (1202-1212). -/
def compressLoad (a : Arch) (kRoll in64 : Bytes) (r : Roll) : Option (V (Vec 4) × Roll) := do
  let f0 ← addOverWr4 a kRoll in64 0
  let f1 ← addOverWr4 a kRoll in64 4
  let f2 ← addOverWr4 a kRoll in64 8
  let f3 ← addOverWr4 a kRoll in64 12
  let f4 ← addOverWr4 a kRoll in64 16
  let s := (kravatteRollc r).1
  let Asa ← loadXOReq s.1 in64 20
  let Ase ← loadXOReq s.2.1 in64 21
  let Asi ← loadXOReq s.2.2.1 in64 22
  let Aso ← loadXOReq s.2.2.2.1 in64 23
  let Asu ← loadXOReq s.2.2.2.2 in64 24
  some (⟨f0.l0, f0.l1, f0.l2, f0.l3, f1.l0, f1.l1, f1.l2, f1.l3, f2.l0, f2.l1, f2.l2, f2.l3, f3.l0, f3.l1, f3.l2, f3.l3,
    f4.l0, f4.l1, f4.l2, f4.l3, Asa, Ase, Asi, Aso, Asu⟩, (kravatteRollc r).2)

/-- The lines after `rounds6` in `KravatteCompress` (1214-1220). -/
def compressStore (a : Arch) (A : V (Vec 4)) (xAccu : Bytes) : Option Bytes := do
  let x ← extrAccu4 ⟨A.ba, A.be, A.bi, A.bo⟩ 0 xAccu
  let x ← extrAccu4 ⟨A.bu, A.ga, A.ge, A.gi⟩ 4 x
  let x ← extrAccu4 ⟨A.go, A.gu, A.ka, A.ke⟩ 8 x
  let x ← extrAccu4 ⟨A.ki, A.ko, A.ku, A.ma⟩ 12 x
  let x ← extrAccu4 ⟨A.me, A.mi, A.mo, A.mu⟩ 16 x
  let x ← extrAccu4 ⟨A.sa, A.se, A.si, A.so⟩ 20 x
  extrAccu a A.su 24 x

/-- What is kept from one iteration of `KravatteCompress` to the next. -/
structure CSt where
  r : Roll
  x : Bytes
  J : Junk

/-- One iteration of `KravatteCompress` (1202-1221). -/
def compressBody (a : Arch) (unr : Unrolling) (kRoll in64 : Bytes) (s : CSt) : Option CSt := do
  let l ← compressLoad a kRoll in64 s.r
  let t := rounds6 rounds unr ⟨l.1, s.J.E, s.J.c⟩
  let x ← compressStore a t.A s.x
  some ⟨l.2, x, ⟨t.E, t.c⟩⟩

/-- `do { ... } while(--nBlocks != 0)`, with the number of iterations (1201-1223, 1284-1348): `step` is one iteration,
given the number of iterations before it. -/
def doWhile {σ : Type} (sizeT : Nat) (step : Nat → σ → Option σ) : Nat → Nat → Nat → σ → Option (σ × Nat)
  | 0, _, _, _ => none
  | fuel + 1, nBlocks, done, s => do
    let s ← step done s
    let nBlocks := (nBlocks + sizeT - 1) % sizeT
    if nBlocks ≠ 0 then doWhile sizeT step fuel nBlocks (done + 1) s else some (s, done + 1)

/-- `KeccakP1600times4_KravatteCompress` (1185-1228): the new `kRoll` and `xAccu` and the value returned. -/
def kravatteCompress (a : Arch) (unr : Unrolling) (J : Junk) (fuel : Nat) (xAccu kRoll input : Bytes) (inputByteLen : Nat) :
    Option (Bytes × Bytes × Nat) := do
  let nBlocks := inputByteLen / (4 * 200)
  let lo ← loadVec 4 kRoll (8 * 20)
  let hi ← loadVec 4 kRoll (8 * 21)
  let (s, n) ← doWhile a.sizeT (fun i s => compressBody a unr kRoll (input.drop (8 * (i * (4 * 25)))) s) fuel nBlocks 0 ⟨⟨lo, hi⟩, xAccu, J⟩
  let kRoll ← storeVec kRoll (8 * 20) s.r.lo
  let kRoll ← storeWord kRoll (8 * 24) (extract64 a s.r.hi 3)
  some (kRoll, s.x, 8 * (n * (4 * 25)))

/-- `Asi` of `KravatteExpand` (1317-1323). -/
def expandAsi (a : Arch) (Ase lanesL01 : Vec 4) : Vec 4 :=
  if a.i386 then
    let Asi := permute4x64 Ase 0x39
    let Asi := insertEpi32 Asi (extractEpi32 lanesL01 0) 6
    insertEpi32 Asi (extractEpi32 lanesL01 1) 7
  else insertEpi64 (permute4x64 Ase 0x39) (extractEpi64 lanesL01 0) 3

/-- `Asu` of `KravatteExpand` (1325-1331). -/
def expandAsu (a : Arch) (Ase lanesL01 : Vec 4) : Vec 4 :=
  if a.i386 then
    let Asu := permute4x64 lanesL01 0x93
    let Asu := insertEpi32 Asu (extractEpi32 Ase 6) 0
    insertEpi32 Asu (extractEpi32 Ase 7) 1
  else insertEpi64 (permute4x64 lanesL01 0x93) (extractEpi64 Ase 3) 0

/-- `Ama`, ..., `Asu` before `rounds6` in `KravatteExpand`, and `lanesL01` (1303-1331). -/
def expandRoll (a : Arch) (y : Bytes) : Option ((Vec 4 × Vec 4 × Vec 4 × Vec 4 × Vec 4) × (Vec 4 × Vec 4 × Vec 4 × Vec 4 × Vec 4) × Vec 4) := do
  let Ama ← loadVec 4 y (8 * 15)
  let Ame ← loadVec 4 y (8 * 16)
  let Ami ← loadVec 4 y (8 * 17)
  let Amo ← loadVec 4 y (8 * 18)
  let Amu ← loadVec 4 y (8 * 19)
  let lanesL01 := or (slli Ama 7) (srli Ama (64 - 7))
  let lanesH01 := or (slli Ame 18) (srli Ame (64 - 18))
  let lanesL01 := xor lanesL01 lanesH01
  let lanesH01 := and Ami (srli Ame 1)
  let lanesL01 := xor lanesL01 lanesH01
  let Asa ← loadVec 4 y (8 * 20)
  let Ase ← loadVec 4 y (8 * 21)
  let Asi := expandAsi a Ase lanesL01
  let Aso := permute2x128 Ase lanesL01 0x21
  let Asu := expandAsu a Ase lanesL01
  some ((Ama, Ame, Ami, Amo, Amu), (Asa, Ase, Asi, Aso, Asu), lanesL01)

/-- `CONST256_64(yAccu[i+0])`, ..., `CONST256_64(yAccu[i+4])` (1285-1289, 1291-1295, 1297-1301). -/
def const5 (y : Bytes) (i : Nat) : Option (Vec 4 × Vec 4 × Vec 4 × Vec 4 × Vec 4) := do
  let w0 ← loadWord y (8 * (i + 0))
  let w1 ← loadWord y (8 * (i + 1))
  let w2 ← loadWord y (8 * (i + 2))
  let w3 ← loadWord y (8 * (i + 3))
  let w4 ← loadWord y (8 * (i + 4))
  some (set1 w0, set1 w1, set1 w2, set1 w3, set1 w4)

/-- The registers before `rounds6` in `KravatteExpand`, and the new `yAccu` (1285-1336). -/
def expandLoad (a : Arch) (y : Bytes) : Option (V (Vec 4) × Bytes) := do
  let b ← const5 y 0
  let g ← const5 y 5
  let k ← const5 y 10
  let r ← expandRoll a y
  let m := r.1
  let s := r.2.1
  let y ← storeVec y (8 * 15) m.2.2.2.2
  let y ← storeWord y (8 * 19) (extract64 a s.2.2.2.1 0)
  let y ← storeWord y (8 * 20) (extract64 a s.2.2.2.1 1)
  let y ← storeVec y (8 * 21) r.2.2
  some (⟨b.1, b.2.1, b.2.2.1, b.2.2.2.1, b.2.2.2.2, g.1, g.2.1, g.2.2.1, g.2.2.2.1, g.2.2.2.2, k.1, k.2.1, k.2.2.1, k.2.2.2.1, k.2.2.2.2,
    m.1, m.2.1, m.2.2.1, m.2.2.2.1, m.2.2.2.2, s.1, s.2.1, s.2.2.1, s.2.2.2.1, s.2.2.2.2⟩, y)

/-- `ExtrAddKey4`, with `UNINTLEAVEa`; `base` is the offset of `out64` (1105-1113, 1258-1267). -/
def extrAddKey4 (kRoll : Bytes) (base : Nat) (l : Four) (i : Nat) (out : Bytes) : Option Bytes := do
  let l ← addKey4 kRoll i l
  let u := unintleave l
  let out ← storeVec out (base + 8 * (i + 0 * 25)) u.l0
  let out ← storeVec out (base + 8 * (i + 1 * 25)) u.l1
  let out ← storeVec out (base + 8 * (i + 2 * 25)) u.l2
  storeVec out (base + 8 * (i + 3 * 25)) u.l3

/-- `ExtrAddKey` (1237-1242). -/
def extrAddKey (a : Arch) (kRoll : Bytes) (base : Nat) (lanes : Vec 4) (i : Nat) (out : Bytes) : Option Bytes := do
  let k ← loadWord kRoll (8 * i)
  let lanes := xor lanes (set1 k)
  let out ← storeWord out (base + 8 * (i + 0 * 25)) (extract64 a lanes 0)
  let out ← storeWord out (base + 8 * (i + 1 * 25)) (extract64 a lanes 1)
  let out ← storeWord out (base + 8 * (i + 2 * 25)) (extract64 a lanes 2)
  storeWord out (base + 8 * (i + 3 * 25)) (extract64 a lanes 3)

/-- The lines after `rounds6` in `KravatteExpand` (1339-1345). -/
def expandStore (a : Arch) (kRoll : Bytes) (base : Nat) (A : V (Vec 4)) (out : Bytes) : Option Bytes := do
  let out ← extrAddKey4 kRoll base ⟨A.ba, A.be, A.bi, A.bo⟩ 0 out
  let out ← extrAddKey4 kRoll base ⟨A.bu, A.ga, A.ge, A.gi⟩ 4 out
  let out ← extrAddKey4 kRoll base ⟨A.go, A.gu, A.ka, A.ke⟩ 8 out
  let out ← extrAddKey4 kRoll base ⟨A.ki, A.ko, A.ku, A.ma⟩ 12 out
  let out ← extrAddKey4 kRoll base ⟨A.me, A.mi, A.mo, A.mu⟩ 16 out
  let out ← extrAddKey4 kRoll base ⟨A.sa, A.se, A.si, A.so⟩ 20 out
  extrAddKey a kRoll base A.su 24 out

/-- What is kept from one iteration of `KravatteExpand` to the next. -/
structure ESt where
  y : Bytes
  out : Bytes
  J : Junk

/-- One iteration of `KravatteExpand`; `base` is the offset of `out64` in the output (1285-1346). -/
def expandBody (a : Arch) (unr : Unrolling) (kRoll : Bytes) (base : Nat) (s : ESt) : Option ESt := do
  let l ← expandLoad a s.y
  let t := rounds6 rounds unr ⟨l.1, s.J.E, s.J.c⟩
  let out ← expandStore a kRoll base t.A s.out
  some ⟨l.2, out, ⟨t.E, t.c⟩⟩

/-- `KeccakP1600times4_KravatteExpand` (1271-1351): the new `yAccu` and `output` and the value returned. -/
def kravatteExpand (a : Arch) (unr : Unrolling) (J : Junk) (fuel : Nat) (yAccu kRoll output : Bytes) (outputByteLen : Nat) :
    Option (Bytes × Bytes × Nat) := do
  let nBlocks := outputByteLen / (4 * 200)
  let (s, n) ← doWhile a.sizeT (fun i s => expandBody a unr kRoll (8 * (i * (4 * 25))) s) fuel nBlocks 0 ⟨yAccu, output, J⟩
  some (s.y, s.out, 8 * (n * (4 * 25)))

end Times4
