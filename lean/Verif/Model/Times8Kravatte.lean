import Verif.Model.KeccakPlane512
import Verif.Model.Times4Kravatte

/-!
# The functions for Kravatte of the eight-way AVX-512 implementation

Models `KeccakP1600times8_KravatteCompress` and `KeccakP1600times8_KravatteExpand` of
`lib/low/KeccakP-1600-times8/AVX512/KeccakP-1600-times8-SIMD512.c` (cited by line number).

* The arrays of 25 `uint64_t` are lists of 200 bytes; `xAccu`, `kRoll`, `yAccu`, `input` and `output` do not overlap.
* `i386` says whether `__i386__` (or `_M_IX86`) is defined; then `size_t` has 32 bits and the file has its own `_mm256_extract_epi64`.
* The registers `_ba`, ... are assigned in every iteration before they are read, and so are not kept from one iteration to the next.
* `rounds6` is the one of `Model/KeccakAvx512.lean`; it expects the lanes in the registers where the first two of its rounds would have left
  them.
-/

namespace Times8

open KeccakP1600 (Lane)
open Simd
open Avx512 (gather scatter ops)
open Plane512 (setr permutex2var maskzLoad maskStore)
open Times4 (doWhile)

/-- One more than the largest `size_t`. -/
def sizeT (i386 : Bool) : Nat := if i386 then 2 ^ 32 else 2 ^ 64

/-- `_mm256_extract_epi64(a, index)`: the intrinsic, or on i386 the macro of lines 1331-1334, which has the logical operator `||`. -/
def extract64 (i386 : Bool) (v : Vec 4) (index : Nat) : Lane :=
  if i386 then
    if (extractEpi32 v (index * 2)).signExtend 64 ≠ (0 : Lane) ∨ (extractEpi32 v (index * 2 + 1)).signExtend 64 <<< 32 ≠ (0 : Lane) then 1
    else 0
  else extractEpi64 v index

/-- `_mm512_extracti64x4_epi64`. -/
def extracti64x4 (a : Vec 8) (i : Nat) : Vec 4 := fun l => a.at (4 * (i % 2) + l.val)

/-- The names `Iba`, ..., `Isu` of the registers (1281-1306): register `_me` is `Ibe`, and so on. -/
def remap {α : Type} (I : V α) : V α where
  ba := I.ba
  me := I.be
  gi := I.bi
  so := I.bo
  ku := I.bu
  sa := I.ga
  ke := I.ge
  bi := I.gi
  mo := I.go
  gu := I.gu
  ma := I.ka
  ge := I.ke
  si := I.ki
  ko := I.ko
  bu := I.ku
  ka := I.ma
  be := I.me
  mi := I.mi
  go := I.mo
  su := I.mu
  ga := I.sa
  se := I.se
  ki := I.si
  bo := I.so
  mu := I.su

/-! ### The tables (1312-1329, 1532-1538) -/

/-- (1312) -/
def oLow256 : Vec 8 := setr [0, 1, 2, 3, 8 + 0, 8 + 1, 8 + 2, 8 + 3]
/-- (1313) -/
def oHigh256 : Vec 8 := setr [4, 5, 6, 7, 8 + 4, 8 + 5, 8 + 6, 8 + 7]
/-- (1315) -/
def oLow128 : Vec 8 := setr [0, 1, 8 + 0, 8 + 1, 4, 5, 8 + 4, 8 + 5]
/-- (1316) -/
def oHigh128 : Vec 8 := setr [2, 3, 8 + 2, 8 + 3, 6, 7, 8 + 6, 8 + 7]
/-- (1318) -/
def oLow64 : Vec 8 := setr [0, 8 + 0, 2, 8 + 2, 4, 8 + 4, 6, 8 + 6]
/-- (1319) -/
def oHigh64 : Vec 8 := setr [1, 8 + 1, 3, 8 + 3, 5, 8 + 5, 7, 8 + 7]
/-- (1321) -/
def o01234_012 : Vec 8 := setr [0, 1, 2, 3, 4, 8 + 0, 8 + 1, 8 + 2]
/-- (1322) -/
def o1234_0123 : Vec 8 := setr [1, 2, 3, 4, 8 + 0, 8 + 1, 8 + 2, 8 + 3]
/-- (1323) -/
def o1234567_0 : Vec 8 := setr [1, 2, 3, 4, 5, 6, 7, 8 + 0]
/-- (1324) -/
def o1234567_3 : Vec 8 := setr [1, 2, 3, 4, 5, 6, 7, 8 + 3]
/-- (1325) -/
def o1234567_4 : Vec 8 := setr [1, 2, 3, 4, 5, 6, 7, 8 + 4]
/-- (1326) -/
def o234567_45 : Vec 8 := setr [2, 3, 4, 5, 6, 7, 8 + 4, 8 + 5]
/-- (1327) -/
def o34567_456 : Vec 8 := setr [3, 4, 5, 6, 7, 8 + 4, 8 + 5, 8 + 6]
/-- (1532) -/
def o1234567_6 : Vec 8 := setr [1, 2, 3, 4, 5, 6, 7, 8 + 6]
/-- (1533) -/
def o234567_01 : Vec 8 := setr [2, 3, 4, 5, 6, 7, 8 + 0, 8 + 1]
/-- (1534) -/
def o34567_012 : Vec 8 := setr [3, 4, 5, 6, 7, 8 + 0, 8 + 1, 8 + 2]
/-- (1535) -/
def o4567_0123 : Vec 8 := setr [4, 5, 6, 7, 8 + 0, 8 + 1, 8 + 2, 8 + 3]
/-- (1536) -/
def o567_01234 : Vec 8 := setr [5, 6, 7, 8 + 0, 8 + 1, 8 + 2, 8 + 3, 8 + 4]
/-- (1537) -/
def o67_012345 : Vec 8 := setr [6, 7, 8 + 0, 8 + 1, 8 + 2, 8 + 3, 8 + 4, 8 + 5]
/-- (1538) -/
def o7_0123456 : Vec 8 := setr [7, 8 + 0, 8 + 1, 8 + 2, 8 + 3, 8 + 4, 8 + 5, 8 + 6]

/-- `oGatherScatter` (1329). -/
def oGatherScatter (i : Nat) : BitVec 32 :=
  BitVec.ofNat 32 ([0 * 25, 1 * 25, 2 * 25, 3 * 25, 4 * 25, 5 * 25, 6 * 25, 7 * 25].getD i 0)

/-! ### Compression -/

/-- `LoadInput` (1308). -/
def loadInput (in64 : Bytes) (i : Nat) : Option (Vec 8) := gather 8 oGatherScatter in64 (8 * i)

/-- `AddInput` (1309). -/
def addInput (kRoll in64 : Bytes) (i : Nat) : Option (Vec 8) := do
  let d ← loadInput in64 i
  let k ← loadWord kRoll (8 * i)
  some (xor d (set1 k))

/-- `XOReq512(v, LoadInput(i))` (1422-1426). -/
def xorInput (in64 : Bytes) (v : Vec 8) (i : Nat) : Option (Vec 8) := do
  let d ← loadInput in64 i
  some (xor v d)

/-- Five consecutive lines, of which the first is for lane `i` (1389-1393, ..., 1404-1408; 1555-1559, 1561-1565, 1567-1571). -/
def row (f : Nat → Option (Vec 8)) (i : Nat) : Option (C5 (Vec 8)) := do
  let a ← f i
  let e ← f (i + 1)
  let i' ← f (i + 2)
  let o ← f (i + 3)
  let u ← f (i + 4)
  some ⟨a, e, i', o, u⟩

/-- The two registers that hold the rolling words of the key, `x01234567` and `x12345678` (1344). -/
structure Roll where
  (lo hi : Vec 8)

/-- `XOR3(ROL(a, 7), b, _mm512_srli_epi64(b, 3))` (1384, 1413, 1419). -/
def rollStep (a b : Vec 8) : Vec 8 := (ops 8).xor3 ((ops 8).rol a 7) b (srli b 3)

/-- The preparation of the two registers (1382-1386). -/
def rollInit (kRoll : Bytes) : Option Roll := do
  let x01234567 ← maskzLoad 0x1F kRoll (8 * 20)
  let _ba ← maskzLoad 0x0F kRoll (8 * 21)
  let _be := rollStep x01234567 _ba
  let x01234567 := permutex2var x01234567 o01234_012 _be
  let x12345678 := permutex2var x01234567 o1234_0123 _be
  some ⟨x01234567, x12345678⟩

/-- `Isa`, ..., `Isu` and the new values of the two registers (1411-1420).  The value that line 1412 gives to `Ise` is not used. -/
def rollc (r : Roll) : C5 (Vec 8) × Roll :=
  let Isa := r.lo
  let Isu := rollStep r.lo r.hi
  let Ise := permutex2var r.lo o1234567_3 Isu
  let Isi := permutex2var Ise o1234567_4 Isu
  let Iso := permutex2var Ise o234567_45 Isu
  let Isu := permutex2var Ise o34567_456 Isu
  let x01234567 := rollStep Iso Isu
  let x12345678 := permutex2var x01234567 o1234567_4 x01234567
  (⟨Isa, Ise, Isi, Iso, Isu⟩, ⟨x01234567, x12345678⟩)

/-- `Iba`, ..., `Isu` before `rounds6` in `KravatteCompress`, and the rolled words (1389-1426). -/
def compressLoad (kRoll in64 : Bytes) (r : Roll) : Option (V (Vec 8) × Roll) := do
  let b ← row (addInput kRoll in64) 0
  let g ← row (addInput kRoll in64) 5
  let k ← row (addInput kRoll in64) 10
  let m ← row (addInput kRoll in64) 15
  let s := (rollc r).1
  let Isa ← xorInput in64 s.a 20
  let Ise ← xorInput in64 s.e 21
  let Isi ← xorInput in64 s.i 22
  let Iso ← xorInput in64 s.o 23
  let Isu ← xorInput in64 s.u 24
  some (⟨b.a, b.e, b.i, b.o, b.u, g.a, g.e, g.i, g.o, g.u, k.a, k.e, k.i, k.o, k.u, m.a, m.e, m.i, m.o, m.u, Isa, Ise, Isi, Iso, Isu⟩, (rollc r).2)

/-- The 25 lines that add the registers to `Xba`, ..., `Xsu` (1432-1456). -/
def accumulate (X A : V (Vec 8)) : V (Vec 8) :=
  ⟨xor X.ba A.ba, xor X.be A.be, xor X.bi A.bi, xor X.bo A.bo, xor X.bu A.bu, xor X.ga A.ga, xor X.ge A.ge, xor X.gi A.gi, xor X.go A.go,
   xor X.gu A.gu, xor X.ka A.ka, xor X.ke A.ke, xor X.ki A.ki, xor X.ko A.ko, xor X.ku A.ku, xor X.ma A.ma, xor X.me A.me, xor X.mi A.mi,
   xor X.mo A.mo, xor X.mu A.mu, xor X.sa A.sa, xor X.se A.se, xor X.si A.si, xor X.so A.so, xor X.su A.su⟩

/-- What is kept from one iteration of `KravatteCompress` to the next. -/
structure CSt where
  r : Roll
  X : V (Vec 8)

/-- One iteration of `KravatteCompress` (1389-1459). -/
def compressBody (kRoll in64 : Bytes) (s : CSt) : Option CSt := do
  let l ← compressLoad kRoll in64 s.r
  let A := Avx512.rounds6 (ops 8) (remap l.1)
  some ⟨l.2, accumulate s.X A⟩

/-- `XOR(_mm512_permutex2var_epi64(a, p1, b), _mm512_permutex2var_epi64(a, p2, b))` (1466-1506). -/
def fold2 (p1 p2 a b : Vec 8) : Vec 8 := xor (permutex2var a p1 b) (permutex2var a p2 b)

/-- The lines that add the lanes of eight registers (for `Xba`, ..., `Xgi`: 1466-1469, 1486-1487, 1500; for `Xgo`, ..., `Xma`: 1472-1475,
1490-1491, 1503; for `Xme`, ..., `Xso`: 1478-1481, 1494-1495, 1506). -/
def horizontal (x0 x1 x2 x3 x4 x5 x6 x7 : Vec 8) : Vec 8 :=
  let x0 := fold2 oLow256 oHigh256 x0 x4
  let x1 := fold2 oLow256 oHigh256 x1 x5
  let x2 := fold2 oLow256 oHigh256 x2 x6
  let x3 := fold2 oLow256 oHigh256 x3 x7
  let x0 := fold2 oLow128 oHigh128 x0 x2
  let x1 := fold2 oLow128 oHigh128 x1 x3
  fold2 oLow64 oHigh64 x0 x1

/-- The lines that add the lanes of `Xsu` (1517-1519). -/
def horizontalLast (i386 : Bool) (Xsu : Vec 8) : Lane :=
  let v1 := xor (extracti64x4 Xsu 0) (extracti64x4 Xsu 1)
  let v1 := xor v1 (permute4x64 v1 0xEE)
  extract64 i386 v1 0 ^^^ extract64 i386 v1 1

/-- The lines that add `Xba`, ..., `Xsu` to `xAccu` (1463-1519). -/
def compressStore (i386 : Bool) (X : V (Vec 8)) (xAccu : Bytes) : Option Bytes := do
  let Xba := horizontal X.ba X.be X.bi X.bo X.bu X.ga X.ge X.gi
  let Xgo := horizontal X.go X.gu X.ka X.ke X.ki X.ko X.ku X.ma
  let Xme := horizontal X.me X.mi X.mo X.mu X.sa X.se X.si X.so
  let x0 ← loadVec 8 xAccu (8 * 0)
  let x8 ← loadVec 8 xAccu (8 * 8)
  let x16 ← loadVec 8 xAccu (8 * 16)
  let xAccu ← storeVec xAccu (8 * 0) (xor Xba x0)
  let xAccu ← storeVec xAccu (8 * 8) (xor Xgo x8)
  let xAccu ← storeVec xAccu (8 * 16) (xor Xme x16)
  let w ← loadWord xAccu (8 * 24)
  storeWord xAccu (8 * 24) (w ^^^ horizontalLast i386 X.su)

/-- `Xba = _mm512_setzero_si512()`, ... (1355-1379). -/
def zeroX : V (Vec 8) :=
  ⟨set1 0, set1 0, set1 0, set1 0, set1 0, set1 0, set1 0, set1 0, set1 0, set1 0, set1 0, set1 0, set1 0, set1 0, set1 0, set1 0, set1 0, set1 0,
   set1 0, set1 0, set1 0, set1 0, set1 0, set1 0, set1 0⟩

/-- `KeccakP1600times8_KravatteCompress` (1336-1527): the new `kRoll` and `xAccu` and the value returned. -/
def kravatteCompress (i386 : Bool) (fuel : Nat) (xAccu kRoll input : Bytes) (inputByteLen : Nat) : Option (Bytes × Bytes × Nat) := do
  let nBlocks := inputByteLen / (8 * 200)
  let r ← rollInit kRoll
  let (s, n) ← doWhile (sizeT i386) (fun i s => compressBody kRoll (input.drop (8 * (i * (8 * 25)))) s) fuel nBlocks 0 ⟨r, zeroX⟩
  let xAccu ← compressStore i386 s.X xAccu
  let kRoll ← maskStore kRoll (8 * 20) 0x1F s.r.lo
  some (kRoll, xAccu, 8 * (n * (8 * 25)))

/-! ### Expansion -/

/-- The two registers that hold the rolling words of the accumulator, `x01234567` and `x23456789` (1548). -/
structure Roll2 where
  (lo hi : Vec 8)

/-- `Ima`, ..., `Imu`, `Isa`, ..., `Isu` and the new values of the two registers (1574-1586). -/
def rolle (r : Roll2) : C5 (Vec 8) × C5 (Vec 8) × Roll2 :=
  let Ima := r.lo
  let Ime := permutex2var r.lo o1234567_6 r.hi
  let Imi := r.hi
  let x23456789 := (ops 8).xor3 ((ops 8).rol Ima 7) ((ops 8).rol Ime 18) (and Imi (srli Ime 1))
  let Imo := permutex2var Imi o1234567_0 x23456789
  let Imu := permutex2var Imi o234567_01 x23456789
  let Isa := permutex2var Imi o34567_012 x23456789
  let Ise := permutex2var Imi o4567_0123 x23456789
  let Isi := permutex2var Imi o567_01234 x23456789
  let Iso := permutex2var Imi o67_012345 x23456789
  let Isu := permutex2var Imi o7_0123456 x23456789
  let x01234567 := Iso
  (⟨Ima, Ime, Imi, Imo, Imu⟩, ⟨Isa, Ise, Isi, Iso, Isu⟩, ⟨x01234567, x23456789⟩)

/-- `CONST8_64(y[i])` (1555-1571). -/
def constWord (y : Bytes) (i : Nat) : Option (Vec 8) := do
  let w ← loadWord y (8 * i)
  some (set1 w)

/-- `Iba`, ..., `Isu` before `rounds6` in `KravatteExpand`, and the rolled words (1555-1586). -/
def expandLoad (yAccu : Bytes) (r : Roll2) : Option (V (Vec 8) × Roll2) := do
  let b ← row (constWord yAccu) 0
  let g ← row (constWord yAccu) 5
  let k ← row (constWord yAccu) 10
  let m := (rolle r).1
  let s := (rolle r).2.1
  some (⟨b.a, b.e, b.i, b.o, b.u, g.a, g.e, g.i, g.o, g.u, k.a, k.e, k.i, k.o, k.u, m.a, m.e, m.i, m.o, m.u, s.a, s.e, s.i, s.o, s.u⟩, (rolle r).2.2)

/-- `_ba = XOR(_ba, CONST8_64(kRoll[0]))` and `STORE_SCATTER8_64(o64+0, scatter, _ba)`, and so on; `base` is the offset of `o64`.  In the file
the 25 lines of the first kind (1592-1616) come before the 25 of the second kind (1620-1644); `kRoll` does not overlap with the output. -/
def addKeyStore (kRoll : Bytes) (base : Nat) (v : Vec 8) (i : Nat) (out : Bytes) : Option Bytes := do
  let k ← loadWord kRoll (8 * i)
  scatter out (base + 8 * i) oGatherScatter (xor v (set1 k))

/-- The lines after `rounds6` in `KravatteExpand` (1592-1644). -/
def expandStore (kRoll : Bytes) (base : Nat) (A : V (Vec 8)) (out : Bytes) : Option Bytes := do
  let out ← addKeyStore kRoll base A.ba 0 out
  let out ← addKeyStore kRoll base A.be 1 out
  let out ← addKeyStore kRoll base A.bi 2 out
  let out ← addKeyStore kRoll base A.bo 3 out
  let out ← addKeyStore kRoll base A.bu 4 out
  let out ← addKeyStore kRoll base A.ga 5 out
  let out ← addKeyStore kRoll base A.ge 6 out
  let out ← addKeyStore kRoll base A.gi 7 out
  let out ← addKeyStore kRoll base A.go 8 out
  let out ← addKeyStore kRoll base A.gu 9 out
  let out ← addKeyStore kRoll base A.ka 10 out
  let out ← addKeyStore kRoll base A.ke 11 out
  let out ← addKeyStore kRoll base A.ki 12 out
  let out ← addKeyStore kRoll base A.ko 13 out
  let out ← addKeyStore kRoll base A.ku 14 out
  let out ← addKeyStore kRoll base A.ma 15 out
  let out ← addKeyStore kRoll base A.me 16 out
  let out ← addKeyStore kRoll base A.mi 17 out
  let out ← addKeyStore kRoll base A.mo 18 out
  let out ← addKeyStore kRoll base A.mu 19 out
  let out ← addKeyStore kRoll base A.sa 20 out
  let out ← addKeyStore kRoll base A.se 21 out
  let out ← addKeyStore kRoll base A.si 22 out
  let out ← addKeyStore kRoll base A.so 23 out
  addKeyStore kRoll base A.su 24 out

/-- What is kept from one iteration of `KravatteExpand` to the next. -/
structure ESt where
  r : Roll2
  out : Bytes

/-- One iteration of `KravatteExpand`; `base` is the offset of `o64` in the output (1555-1647). -/
def expandBody (yAccu kRoll : Bytes) (base : Nat) (s : ESt) : Option ESt := do
  let l ← expandLoad yAccu s.r
  let A := Avx512.rounds6 (ops 8) (remap l.1)
  let out ← expandStore kRoll base A s.out
  some ⟨l.2, out⟩

/-- `KeccakP1600times8_KravatteExpand` (1540-1657): the new `yAccu` and `output` and the value returned. -/
def kravatteExpand (i386 : Bool) (fuel : Nat) (yAccu kRoll output : Bytes) (outputByteLen : Nat) : Option (Bytes × Bytes × Nat) := do
  let nBlocks := outputByteLen / (8 * 200)
  let lo ← loadVec 8 yAccu (8 * 15)
  let hi ← loadVec 8 yAccu (8 * 17)
  let (s, n) ← doWhile (sizeT i386) (fun i s => expandBody yAccu kRoll (8 * (i * (8 * 25))) s) fuel nBlocks 0 ⟨⟨lo, hi⟩, output⟩
  let yAccu ← maskStore yAccu (8 * 15) 0xFF s.r.lo
  let yAccu ← maskStore yAccu (8 * 17) 0xC0 s.r.hi
  some (yAccu, s.out, 8 * (n * (8 * 25)))

end Times8
