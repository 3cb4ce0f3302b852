import Verif.Model.SimdRounds
import Verif.Model.Interleaved
import Verif.Model.PlSnPFallback

/-!
# Two, four and eight Keccak-p[1600] in parallel with AVX-512

Models the three files

* x2: `lib/low/KeccakP-1600-times2/AVX512/KeccakP-1600-times2-SIMD512.c`,
* x4: `lib/low/KeccakP-1600-times4/AVX512/KeccakP-1600-times4-SIMD512.c`,
* x8: `lib/low/KeccakP-1600-times8/AVX512/KeccakP-1600-times8-SIMD512.c`

(cited by line number) and their headers.  They have the same text but for the width of the registers and for the vectors of indices, so
that one model with a parameter `File` stands for the three.  The functions on the bytes of one state are in `Model/Interleaved.lean`,
`copyFromState` and `copyToState` in `Model/SimdRounds.lean`.  The round macros of x2 (463-604), not cited below, are those of x4 (491-632).

* The state is the list of the bytes of the array `A` of 25 registers.
* In contrast to the AVX2 code a round is computed in place: the variables are used under the names they have in the macro
  `KeccakP_4rounds`, and get back to their places after four rounds.
* The variables `_Ba ... _Bu`, assigned anew in every macro before they are used, are local to the macros here, and `_Da ... _Du` are passed from
  `KeccakP_ThetaRhoPiChiIota0` to the four macros that follow it.
* The functions for Kravatte at the end of x8 are in `Model/Times8Kravatte.lean`.  With `KeccakP1600times8_unrolling == 4` the two functions for KangarooTwelve do
  not compile (`i` is not declared, x8:1208-1270, and the `;` after `rounds12` is missing); the model gives them a meaning all the same.
* Data given to the lanes functions do not overlap the state; `input` and `output` are separate buffers.
-/

namespace Avx512

open KeccakP1600 (Lane wordOfBytes)
open Simd
open PlSnPFallback (Par Perm)

/-! ### Intrinsics -/

/-- `_mm_set_epi32`, `_mm256_set_epi32`: the last argument is element 0.  The arguments are converted to 32 bits. -/
def setEpi32 (xs : List Nat) : Nat → BitVec 32 := fun i => BitVec.ofNat 32 (xs.reverse.getD i 0)

/-- `_mm_i32gather_epi64`, `_mm256_i32gather_epi64`, `_mm512_i32gather_epi64` (x8:138-148) with scale 8, from byte `at` of a buffer on.  The
indices are `int`: a negative one points before the pointer and is treated here as an access outside of the buffer. -/
def gather (n : Nat) (idx : Nat → BitVec 32) (buf : Bytes) (at_ : Nat) : Option (Vec n) :=
  if ∀ i : Fin n, (idx i.val).msb = false ∧ at_ + 8 * (idx i.val).toNat + 8 ≤ buf.length then
    some fun i => wordOfBytes (buf.drop (at_ + 8 * (idx i.val).toNat))
  else none

/-- `_mm_i32scatter_epi64`, `_mm256_i32scatter_epi64`, `_mm512_i32scatter_epi64` (x8:150-158) with scale 8: the lanes are stored one after the
other. -/
def scatter {n : Nat} (buf : Bytes) (at_ : Nat) (idx : Nat → BitVec 32) (v : Vec n) : Option Bytes :=
  (List.range n).foldlM (fun buf i => if (idx i).msb then none else storeWord buf (at_ + 8 * (idx i).toNat) (v.at i)) buf

/-- `_mm_ternarylogic_epi64`, `_mm256_ternarylogic_epi64`, `_mm512_ternarylogic_epi64` (x8:72-88, for the two values of `imm` used): in every bit
position, bit `4 * a + 2 * b + c` of `imm`. -/
def ternarylogic {n : Nat} (a b c : Vec n) (imm : Nat) : Vec n := fun i =>
  (List.range 8).foldl (fun r k =>
    if imm.testBit k then
      r ||| ((if k / 4 = 1 then a i else ~~~ a i) &&& (if k / 2 % 2 = 1 then b i else ~~~ b i) &&& (if k % 2 = 1 then c i else ~~~ c i))
    else r) 0

/-- `_mm512_shuffle_i32x4`: of the four 128-bit blocks of the result, the two low ones are blocks of `a`, the two high ones blocks of `b`. -/
def shuffleI32x4 (a b : Vec 8) (c : Nat) : Vec 8 := fun l =>
  (if l.val < 4 then a else b).at (c / 4 ^ (l.val / 2) % 4 * 2 + l.val % 2)

/-! ### What differs between the files -/

/-- The three files. -/
inductive File
  | x2 | x4 | x8
  deriving DecidableEq

/-- The number of states: `KeccakP1600times2`, `KeccakP1600times4`, `KeccakP1600times8`. -/
def File.n : File → Nat
  | .x2 => 2 | .x4 => 4 | .x8 => 8

/-- The number of lanes of a state processed by one 512-bit operation: `Add_In4` (x2:192), `Add_In2` (x4:191), `Add_In` (x8:380). -/
def File.g : File → Nat
  | .x2 => 4 | .x4 => 2 | .x8 => 1

/-- `index128` (x2:188, 253, 334, 408), `index256` (x4:192, 264, 352, 433), `index` (x8:381, 458, 551, 637, 993, 1053): the lanes at the same
position of all states. -/
def index : File → Nat → Nat → BitVec 32
  | .x2, lo => setEpi32 [0, 0, 1 * lo, 0 * lo]
  | .x4, lo => setEpi32 [3 * lo, 2 * lo, 1 * lo, 0 * lo]
  | .x8, lo => setEpi32 [7 * lo, 6 * lo, 5 * lo, 4 * lo, 3 * lo, 2 * lo, 1 * lo, 0 * lo]

/-- `index512` (x2:189, 254, 335, 409; x4:193, 265, 353, 434); in x8 there is only `index`. -/
def index512 : File → Nat → Nat → BitVec 32
  | .x2, lo => setEpi32 [1 * lo + 3, 0 * lo + 3, 1 * lo + 2, 0 * lo + 2, 1 * lo + 1, 0 * lo + 1, 1 * lo, 0 * lo]
  | .x4, lo => setEpi32 [3 * lo + 1, 2 * lo + 1, 1 * lo + 1, 0 * lo + 1, 3 * lo, 2 * lo, 1 * lo, 0 * lo]
  | .x8, lo => index .x8 lo

/-- The positions in the first group of operations of the lane functions, for the lanes 0 to 15 (x2:194-197, x4:195-202, x8:383-398). -/
def File.first : File → List Nat
  | .x2 => [0, 4, 8, 12]
  | .x4 => [0, 2, 4, 6, 8, 10, 12, 14]
  | .x8 => [0, 1, 2, 3, 4, 5, 6, 7, 8, 9, 10, 11, 12, 13, 14, 15]

/-- The positions in the second group, for the lanes 16 to 19 (x2:199, x4:204-205, x8:400-403). -/
def File.second : File → List Nat
  | .x2 => [16]
  | .x4 => [16, 18]
  | .x8 => [16, 17, 18, 19]

variable (f : File)

/-! ### Lane functions -/

/-- The structure of the lane functions (x2:193-211, x4:194-217, x8:382-415): `fw(i)` is the 512-bit operation on the lanes from `i` on,
`f1(i)` the one on lane `i`. -/
def overLanes (fw f1 : Nat → Bytes → Option Bytes) (laneCount : Nat) (m : Bytes) : Option Bytes :=
  if laneCount ≥ 16 then do
    let m ← seq fw f.first m
    if laneCount ≥ 20 then do
      let m ← seq fw f.second m
      forTo f1 20 laneCount m
    else forTo f1 16 laneCount m
  else forTo f1 0 laneCount m

/-- The macros `Add_In1` (x2:191, x4:190), and `Add_In` (x8:380). -/
def addIn1 (data : Bytes) (lo p : Nat) (mem : Bytes) : Option Bytes := do
  let s ← loadVec f.n mem (8 * f.n * p)
  let d ← gather f.n (index f lo) data (8 * p)
  storeVec mem (8 * f.n * p) (xor s d)

/-- The macros `Add_In4` (x2:192), `Add_In2` (x4:191), and `Add_In` (x8:380): `stateAsLanes512[argIndex/4]`, `[argIndex/2]`, `[argIndex]`. -/
def addInW (data : Bytes) (lo p : Nat) (mem : Bytes) : Option Bytes := do
  let s ← loadVec 8 mem (64 * (p / f.g))
  let d ← gather 8 (index512 f lo) data (8 * p)
  storeVec mem (64 * (p / f.g)) (xor s d)

/-- `KeccakP1600times*_AddLanesAll` (x2:182-214, x4:181-220, x8:373-417). -/
def addLanesAll (mem data : Bytes) (laneCount laneOffset : Nat) : Option Bytes :=
  overLanes f (addInW f data laneOffset) (addIn1 f data laneOffset) laneCount mem

/-- The macros `OverWr1` (x2:256, x4:262), and `OverWr` (x8:457). -/
def overWr1 (data : Bytes) (lo p : Nat) (mem : Bytes) : Option Bytes := do
  let d ← gather f.n (index f lo) data (8 * p)
  storeVec mem (8 * f.n * p) d

/-- The macros `OverWr4` (x2:257), `OverWr2` (x4:263), and `OverWr` (x8:457). -/
def overWrW (data : Bytes) (lo p : Nat) (mem : Bytes) : Option Bytes := do
  let d ← gather 8 (index512 f lo) data (8 * p)
  storeVec mem (64 * (p / f.g)) d

/-- `KeccakP1600times*_OverwriteLanesAll` (x2:247-279, x4:253-292, x8:450-494). -/
def overwriteLanesAll (mem data : Bytes) (laneCount laneOffset : Nat) : Option Bytes :=
  overLanes f (overWrW f data laneOffset) (overWr1 f data laneOffset) laneCount mem

/-- The macros `Extr1` (x2:337, x4:350), and `Extr` (x8:550). -/
def extr1 (mem : Bytes) (lo p : Nat) (out : Bytes) : Option Bytes := do
  let s ← loadVec f.n mem (8 * f.n * p)
  scatter out (8 * p) (index f lo) s

/-- The macros `Extr4` (x2:338), `Extr2` (x4:351), and `Extr` (x8:550). -/
def extrW (mem : Bytes) (lo p : Nat) (out : Bytes) : Option Bytes := do
  let s ← loadVec 8 mem (64 * (p / f.g))
  scatter out (8 * p) (index512 f lo) s

/-- `KeccakP1600times*_ExtractLanesAll` (x2:328-360, x4:341-380, x8:543-587). -/
def extractLanesAll (mem out : Bytes) (laneCount laneOffset : Nat) : Option Bytes :=
  overLanes f (extrW f mem laneOffset) (extr1 f mem laneOffset) laneCount out

/-- The macros `ExtrAdd1` (x2:411, x4:431), and `ExtrAdd` (x8:636). -/
def extrAdd1 (mem input : Bytes) (lo p : Nat) (out : Bytes) : Option Bytes := do
  let s ← loadVec f.n mem (8 * f.n * p)
  let d ← gather f.n (index f lo) input (8 * p)
  scatter out (8 * p) (index f lo) (xor s d)

/-- The macros `ExtrAdd4` (x2:412), `ExtrAdd2` (x4:432), and `ExtrAdd` (x8:636). -/
def extrAddW (mem input : Bytes) (lo p : Nat) (out : Bytes) : Option Bytes := do
  let s ← loadVec 8 mem (64 * (p / f.g))
  let d ← gather 8 (index512 f lo) input (8 * p)
  scatter out (8 * p) (index512 f lo) (xor s d)

/-- `KeccakP1600times*_ExtractAndAddLanesAll` (x2:401-435, x4:421-463, x8:628-674). -/
def extractAndAddLanesAll (mem input out : Bytes) (laneCount laneOffset : Nat) : Option Bytes :=
  overLanes f (extrAddW f mem input laneOffset) (extrAdd1 f mem input laneOffset) laneCount out

/-! ### Rounds -/

variable {α : Type}

/-- The macros on registers used in the rounds (x8:252-258, x4:121-128): `XOR`, `XOR3`, `ROL`, `Chi`, `CONST8_64`. -/
structure Ops (α : Type) where
  xor : α → α → α
  xor3 : α → α → α → α
  rol : α → Nat → α
  chi : α → α → α → α
  const : Lane → α

/-- The macros of x8:252-258, x4:121-128. -/
def ops (n : Nat) : Ops (Vec n) where
  xor := xor
  xor3 a b c := ternarylogic a b c 0x96
  rol := roti
  chi a b c := ternarylogic a b c 0xD2
  const := set1

/-- `XOR5` (x8:254, x4:123). -/
def Ops.xor5 (O : Ops α) (a b c d e : α) : α := O.xor3 (O.xor3 a b c) d e

/-- The first half of `KeccakP_ThetaRhoPiChi` (x8:711-721, x4:500-510): the values of the variables `_Bb1 ... _Bb5`; `r1 ... r5` are the rotations. -/
def thetaRho (O : Ops α) (D L : C5 α) (r1 r2 r3 r4 r5 : Nat) : C5 α :=
  let b1 := O.xor L.a D.a
  let b2 := O.xor L.e D.e
  let b3 := O.xor L.i D.i
  let b4 := O.xor L.o D.o
  let b5 := O.xor L.u D.u
  let b1 := if r1 ≠ 0 then O.rol b1 r1 else b1
  ⟨b1, O.rol b2 r2, O.rol b3 r3, O.rol b4 r4, O.rol b5 r5⟩

/-- The second half (x8:722-726, x4:511-515): the new values of `_L1 ... _L5` from `_Ba ... _Bu`. -/
def chi5 (O : Ops α) (Ba Be Bi Bo Bu : α) : C5 α :=
  ⟨O.chi Ba Be Bi, O.chi Be Bi Bo, O.chi Bi Bo Bu, O.chi Bo Bu Ba, O.chi Bu Ba Be⟩

/-- The `Theta effect` of `KeccakP_ThetaRhoPiChiIota0` (x8:729-743, x4:518-532): the variables `_Da ... _Du`. -/
def theta (O : Ops α) (s : V α) : C5 α :=
  let Ba := O.xor5 s.ba s.ga s.ka s.ma s.sa
  let Be := O.xor5 s.be s.ge s.ke s.me s.se
  let Bi := O.xor5 s.bi s.gi s.ki s.mi s.si
  let Bo := O.xor5 s.bo s.go s.ko s.mo s.so
  let Bu := O.xor5 s.bu s.gu s.ku s.mu s.su
  let Da := O.rol Be 1
  let De := O.rol Bi 1
  let Di := O.rol Bo 1
  let Do := O.rol Bu 1
  let Du := O.rol Ba 1
  ⟨O.xor Da Bu, O.xor De Ba, O.xor Di Be, O.xor Do Bi, O.xor Du Bo⟩

/-- The rest of `KeccakP_ThetaRhoPiChiIota0` (x8:744-745, x4:533-534). -/
def trpcIota0 (O : Ops α) (D L : C5 α) (rc : α) : C5 α :=
  let b := thetaRho O D L 0 44 43 21 14
  let c := chi5 O b.a b.e b.i b.o b.u
  { c with a := O.xor c.a rc }

/-- `KeccakP_ThetaRhoPiChi1` (x8:747-748, x4:536-537): the variables assigned are `_Bi, _Bo, _Bu, _Ba, _Be`. -/
def trpc1 (O : Ops α) (D L : C5 α) : C5 α :=
  let b := thetaRho O D L 3 45 61 28 20
  chi5 O (Bi := b.a) (Bo := b.e) (Bu := b.i) (Ba := b.o) (Be := b.u)

/-- `KeccakP_ThetaRhoPiChi2` (x8:750-751, x4:539-540): `_Bu, _Ba, _Be, _Bi, _Bo`. -/
def trpc2 (O : Ops α) (D L : C5 α) : C5 α :=
  let b := thetaRho O D L 18 1 6 25 8
  chi5 O (Bu := b.a) (Ba := b.e) (Be := b.i) (Bi := b.o) (Bo := b.u)

/-- `KeccakP_ThetaRhoPiChi3` (x8:753-754, x4:542-543): `_Be, _Bi, _Bo, _Bu, _Ba`. -/
def trpc3 (O : Ops α) (D L : C5 α) : C5 α :=
  let b := thetaRho O D L 36 10 15 56 27
  chi5 O (Be := b.a) (Bi := b.e) (Bo := b.i) (Bu := b.o) (Ba := b.u)

/-- `KeccakP_ThetaRhoPiChi4` (x8:756-757, x4:545-546): `_Bo, _Bu, _Ba, _Be, _Bi`. -/
def trpc4 (O : Ops α) (D L : C5 α) : C5 α :=
  let b := thetaRho O D L 41 2 62 55 39
  chi5 O (Bo := b.a) (Bu := b.e) (Ba := b.i) (Be := b.o) (Bi := b.u)

/-- The first round of `KeccakP_4rounds` (x8:760-764, x4:549-553). -/
def step0 (O : Ops α) (rc : Lane) (s : V α) : V α :=
  let D := theta O s
  let L := trpcIota0 O D ⟨s.ba, s.ge, s.ki, s.mo, s.su⟩ (O.const rc)
  let s := { s with ba := L.a, ge := L.e, ki := L.i, mo := L.o, su := L.u }
  let L := trpc1 O D ⟨s.ka, s.me, s.si, s.bo, s.gu⟩
  let s := { s with ka := L.a, me := L.e, si := L.i, bo := L.o, gu := L.u }
  let L := trpc2 O D ⟨s.sa, s.be, s.gi, s.ko, s.mu⟩
  let s := { s with sa := L.a, be := L.e, gi := L.i, ko := L.o, mu := L.u }
  let L := trpc3 O D ⟨s.ga, s.ke, s.mi, s.so, s.bu⟩
  let s := { s with ga := L.a, ke := L.e, mi := L.i, so := L.o, bu := L.u }
  let L := trpc4 O D ⟨s.ma, s.se, s.bi, s.go, s.ku⟩
  { s with ma := L.a, se := L.e, bi := L.i, go := L.o, ku := L.u }

/-- The second round (x8:766-770, x4:555-559). -/
def step1 (O : Ops α) (rc : Lane) (s : V α) : V α :=
  let D := theta O s
  let L := trpcIota0 O D ⟨s.ba, s.me, s.gi, s.so, s.ku⟩ (O.const rc)
  let s := { s with ba := L.a, me := L.e, gi := L.i, so := L.o, ku := L.u }
  let L := trpc1 O D ⟨s.sa, s.ke, s.bi, s.mo, s.gu⟩
  let s := { s with sa := L.a, ke := L.e, bi := L.i, mo := L.o, gu := L.u }
  let L := trpc2 O D ⟨s.ma, s.ge, s.si, s.ko, s.bu⟩
  let s := { s with ma := L.a, ge := L.e, si := L.i, ko := L.o, bu := L.u }
  let L := trpc3 O D ⟨s.ka, s.be, s.mi, s.go, s.su⟩
  let s := { s with ka := L.a, be := L.e, mi := L.i, go := L.o, su := L.u }
  let L := trpc4 O D ⟨s.ga, s.se, s.ki, s.bo, s.mu⟩
  { s with ga := L.a, se := L.e, ki := L.i, bo := L.o, mu := L.u }

/-- The third round (x8:772-776, x4:561-565), also the first one of `KeccakP_2rounds` (x8:785-789, x4:574-578). -/
def step2 (O : Ops α) (rc : Lane) (s : V α) : V α :=
  let D := theta O s
  let L := trpcIota0 O D ⟨s.ba, s.ke, s.si, s.go, s.mu⟩ (O.const rc)
  let s := { s with ba := L.a, ke := L.e, si := L.i, go := L.o, mu := L.u }
  let L := trpc1 O D ⟨s.ma, s.be, s.ki, s.so, s.gu⟩
  let s := { s with ma := L.a, be := L.e, ki := L.i, so := L.o, gu := L.u }
  let L := trpc2 O D ⟨s.ga, s.me, s.bi, s.ko, s.su⟩
  let s := { s with ga := L.a, me := L.e, bi := L.i, ko := L.o, su := L.u }
  let L := trpc3 O D ⟨s.sa, s.ge, s.mi, s.bo, s.ku⟩
  let s := { s with sa := L.a, ge := L.e, mi := L.i, bo := L.o, ku := L.u }
  let L := trpc4 O D ⟨s.ka, s.se, s.gi, s.mo, s.bu⟩
  { s with ka := L.a, se := L.e, gi := L.i, mo := L.o, bu := L.u }

/-- The fourth round (x8:778-782, x4:567-571), also the second one of `KeccakP_2rounds` (x8:791-795, x4:580-584). -/
def step3 (O : Ops α) (rc : Lane) (s : V α) : V α :=
  let D := theta O s
  let L := trpcIota0 O D ⟨s.ba, s.be, s.bi, s.bo, s.bu⟩ (O.const rc)
  let s := { s with ba := L.a, be := L.e, bi := L.i, bo := L.o, bu := L.u }
  let L := trpc1 O D ⟨s.ga, s.ge, s.gi, s.go, s.gu⟩
  let s := { s with ga := L.a, ge := L.e, gi := L.i, go := L.o, gu := L.u }
  let L := trpc2 O D ⟨s.ka, s.ke, s.ki, s.ko, s.ku⟩
  let s := { s with ka := L.a, ke := L.e, ki := L.i, ko := L.o, ku := L.u }
  let L := trpc3 O D ⟨s.ma, s.me, s.mi, s.mo, s.mu⟩
  let s := { s with ma := L.a, me := L.e, mi := L.i, mo := L.o, mu := L.u }
  let L := trpc4 O D ⟨s.sa, s.se, s.si, s.so, s.su⟩
  { s with sa := L.a, se := L.e, si := L.i, so := L.o, su := L.u }

/-- `KeccakP1600RoundConstants` (x8:676-700, x4:465-489). -/
def roundConstants : List Lane := [
  0x0000000000000001, 0x0000000000008082, 0x800000000000808a,
  0x8000000080008000, 0x000000000000808b, 0x0000000080000001,
  0x8000000080008081, 0x8000000000008009, 0x000000000000008a,
  0x0000000000000088, 0x0000000080008009, 0x000000008000000a,
  0x000000008000808b, 0x800000000000008b, 0x8000000000008089,
  0x8000000000008003, 0x8000000000008002, 0x8000000000000080,
  0x000000000000800a, 0x800000008000000a, 0x8000000080008081,
  0x8000000000008080, 0x0000000080000001, 0x8000000080008008]

/-- `KeccakP_4rounds(i)` (x8:759-782, x4:548-571). -/
def fourRounds (O : Ops α) (i : Nat) (s : V α) : V α :=
  let s := step0 O (roundConstants.getD i 0) s
  let s := step1 O (roundConstants.getD (i + 1) 0) s
  let s := step2 O (roundConstants.getD (i + 2) 0) s
  step3 O (roundConstants.getD (i + 3) 0) s

/-- `KeccakP_2rounds(i)` (x8:784-795, x4:573-584). -/
def twoRounds (O : Ops α) (i : Nat) (s : V α) : V α :=
  let s := step2 O (roundConstants.getD i 0) s
  step3 O (roundConstants.getD (i + 1) 0) s

/-- `KeccakP1600times*_fullUnrolling`, or the value of `KeccakP1600times*_unrolling`. -/
inductive Unrolling
  | full | u4 | u12

/-- `do { body(i) } while( (i += step) < 24 )`; the fuel 24 is always enough for `step > 0`. -/
def doWhile (step : Nat) (body : Nat → V α → V α) : Nat → Nat → V α → V α
  | 0, _, s => s
  | fuel + 1, i, s => if i + step < 24 then doWhile step body fuel (i + step) (body i s) else body i s

/-- `rounds12` (x8:799-802, 814-818, 828-831; x4:588-591, 603-607, 617-620). -/
def rounds12 (O : Ops α) (unr : Unrolling) (s : V α) : V α :=
  match unr with
  | .full => fourRounds O 20 (fourRounds O 16 (fourRounds O 12 s))
  | .u4 => doWhile 4 (fourRounds O) 24 12 s
  | .u12 => fourRounds O 20 (fourRounds O 16 (fourRounds O 12 s))

/-- `rounds24` (x8:804-810, 820-824, 833-839; x4:593-599, 609-613, 622-628). -/
def rounds24 (O : Ops α) (unr : Unrolling) (s : V α) : V α :=
  match unr with
  | .full => fourRounds O 20 (fourRounds O 16 (fourRounds O 12 (fourRounds O 8 (fourRounds O 4 (fourRounds O 0 s)))))
  | .u4 => doWhile 4 (fourRounds O) 24 0 s
  | .u12 => doWhile 12 (fun i s => fourRounds O (i + 8) (fourRounds O (i + 4) (fourRounds O i s))) 24 0 s

/-- `rounds6` (x8:845-847; x4:746-747, x2:718-719). -/
def rounds6 (O : Ops α) (s : V α) : V α := fourRounds O 20 (twoRounds O 18 s)

/-- `rounds4` (x8:849-850; x4:758, x2:729). -/
def rounds4 (O : Ops α) (s : V α) : V α := fourRounds O 20 s

/-- `copyFromState2rounds` (x8:879-904, x4:634-659, x2:606-631). -/
def copyFromState2rounds (n : Nat) (mem : Bytes) : Option (V (Vec n)) := do
  let ld := fun p => loadVec n mem (8 * n * p)
  let ba ← ld 0
  let be ← ld 16
  let bi ← ld 7
  let bo ← ld 23
  let bu ← ld 14
  let ga ← ld 20
  let ge ← ld 11
  let gi ← ld 2
  let go ← ld 18
  let gu ← ld 9
  let ka ← ld 15
  let ke ← ld 6
  let ki ← ld 22
  let ko ← ld 13
  let ku ← ld 4
  let ma ← ld 10
  let me ← ld 1
  let mi ← ld 17
  let mo ← ld 8
  let mu ← ld 24
  let sa ← ld 5
  let se ← ld 21
  let si ← ld 12
  let so ← ld 3
  let su ← ld 19
  some ⟨ba, be, bi, bo, bu, ga, ge, gi, go, gu, ka, ke, ki, ko, ku, ma, me, mi, mo, mu, sa, se, si, so, su⟩

/-- `KeccakP1600times*_PermuteAll_24rounds`, `_12rounds`, `_6rounds`, `_4rounds` (x8:933-977, x4:715-760, x2:687-732). -/
def permuteAll (unr : Unrolling) (p : Perm) (mem : Bytes) : Option Bytes :=
  match p with
  | .all => do
    let A ← copyFromState f.n mem
    copyToState mem (rounds24 (ops f.n) unr A)
  | .r12 => do
    let A ← copyFromState f.n mem
    copyToState mem (rounds12 (ops f.n) unr A)
  | .r6 => do
    let A ← copyFromState2rounds f.n mem
    copyToState mem (rounds6 (ops f.n) A)
  | .r4 => do
    let A ← copyFromState f.n mem
    copyToState mem (rounds4 (ops f.n) A)

/-! ### Fast loops -/

/-- The macro `Add_In` of the fast loops (x8:995, x4:779, x2:750), and `XOReq(x, LOAD_GATHER8_64(...))` (x8:1172-1175, 1199, 1203-1206): the new
value of the variable. -/
def addVar {n : Nat} (idx : Nat → BitVec 32) (data : Bytes) (x : Vec n) (p : Nat) : Option (Vec n) := do
  let d ← gather n idx data (8 * p)
  some (xor x d)

/-- The 21 lines `Add_In( _ba, 0 )` ... `Add_In( _sa, 20 )` (x8:996-1016, 1056-1076; x4:780-800, 840-860; x2:751-771, 810-830). -/
def addVars21 {n : Nat} (idx : Nat → BitVec 32) (data : Bytes) (A : V (Vec n)) : Option (V (Vec n)) := do
  let ba ← addVar idx data A.ba 0
  let be ← addVar idx data A.be 1
  let bi ← addVar idx data A.bi 2
  let bo ← addVar idx data A.bo 3
  let bu ← addVar idx data A.bu 4
  let ga ← addVar idx data A.ga 5
  let ge ← addVar idx data A.ge 6
  let gi ← addVar idx data A.gi 7
  let go ← addVar idx data A.go 8
  let gu ← addVar idx data A.gu 9
  let ka ← addVar idx data A.ka 10
  let ke ← addVar idx data A.ke 11
  let ki ← addVar idx data A.ki 12
  let ko ← addVar idx data A.ko 13
  let ku ← addVar idx data A.ku 14
  let ma ← addVar idx data A.ma 15
  let me ← addVar idx data A.me 16
  let mi ← addVar idx data A.mi 17
  let mo ← addVar idx data A.mo 18
  let mu ← addVar idx data A.mu 19
  let sa ← addVar idx data A.sa 20
  some { A with ba := ba, be := be, bi := bi, bo := bo, bu := bu, ga := ga, ge := ge, gi := gi, go := go, gu := gu, ka := ka, ke := ke,
                ki := ki, ko := ko, ku := ku, ma := ma, me := me, mi := mi, mo := mo, mu := mu, sa := sa }

/-- The body of the loop on local variables (x8:995-1020, 1055-1080); `rounds` is `rounds24` or `rounds12`. -/
def bodyVars (rounds : V (Vec f.n) → V (Vec f.n)) (laneOffset : Nat) (data : Bytes) (A : V (Vec f.n)) : Option (V (Vec f.n)) := do
  let A ← addVars21 (index f laneOffset) data A
  some (rounds A)

/-- The body of the loop on the state (x8:1030-1031, 1090-1091; x4:813-814, 873-874; x2:784-785, 843-844). -/
def body (unr : Unrolling) (p : Perm) (laneCount laneOffset : Nat) (data mem : Bytes) : Option Bytes := do
  let mem ← addLanesAll f mem data laneCount laneOffset
  permuteAll f unr p mem

/-- `copyFromState`, the loop on local variables, `copyToState` (x8:983-1024, 1043-1084; x4:766-807, 826-867; x2:738-778, 797-837).  The pointer is to
64-bit words and moves by `laneOffsetSerial` words. -/
def fastVars (rounds : V (Vec f.n) → V (Vec f.n)) (fuel : Nat) (mem : Bytes)
    (laneCount laneOffsetParallel laneOffsetSerial : Nat) (data : Bytes) (dataByteLen : Nat) : Option (Bytes × Nat) := do
  let A ← copyFromState f.n mem
  let (A, total) ← absorbLoop ((laneOffsetParallel * (f.n - 1) + laneCount) * 8 % 2 ^ 32) (8 * laneOffsetSerial) (laneOffsetSerial * 8 % 2 ^ 32)
    (bodyVars f rounds laneOffsetParallel) fuel data dataByteLen A
  let mem ← copyToState mem A
  some (mem, total)

/-- The loop on the state (x8:1026-1036, 1086-1096; x4:809-819, 869-879; x2:780-790, 839-849). -/
def fastState (unr : Unrolling) (p : Perm) (fuel : Nat) (mem : Bytes)
    (laneCount laneOffsetParallel laneOffsetSerial : Nat) (data : Bytes) (dataByteLen : Nat) : Option (Bytes × Nat) :=
  absorbLoop ((laneOffsetParallel * (f.n - 1) + laneCount) * 8 % 2 ^ 32) (laneOffsetSerial * 8 % 2 ^ 32) (laneOffsetSerial * 8 % 2 ^ 32)
    (body f unr p laneCount laneOffsetParallel) fuel data dataByteLen mem

/-- `KeccakF1600times*_FastLoop_Absorb` (x8:979-1037, x4:762-820, x2:734-791). -/
def fastLoopAbsorb (unr : Unrolling) (fuel : Nat) (mem : Bytes)
    (laneCount laneOffsetParallel laneOffsetSerial : Nat) (data : Bytes) (dataByteLen : Nat) : Option (Bytes × Nat) :=
  if laneCount = 21 then
    fastVars f (rounds24 (ops f.n) unr) fuel mem laneCount laneOffsetParallel laneOffsetSerial data dataByteLen
  else fastState f unr .all fuel mem laneCount laneOffsetParallel laneOffsetSerial data dataByteLen

/-- `KeccakP1600times*_12rounds_FastLoop_Absorb` (x8:1039-1097, x4:822-880, x2:793-850). -/
def fastLoopAbsorb12 (unr : Unrolling) (fuel : Nat) (mem : Bytes)
    (laneCount laneOffsetParallel laneOffsetSerial : Nat) (data : Bytes) (dataByteLen : Nat) : Option (Bytes × Nat) :=
  if laneCount = 21 then
    fastVars f (rounds12 (ops f.n) unr) fuel mem laneCount laneOffsetParallel laneOffsetSerial data dataByteLen
  else fastState f unr .r12 fuel mem laneCount laneOffsetParallel laneOffsetSerial data dataByteLen

/-- The implementation (AVX512/KeccakP-1600-times8-SnP.h:27-59, and the same in the other two). -/
def impl (unr : Unrolling) : Par where
  par := f.n
  size := 200 * f.n
  align := 64
  lane := 8
  initAll := Interleaved.initAll
  addByte := Interleaved.addByte f.n
  addBytes := Interleaved.addBytes f.n
  addLanesAll := addLanesAll f
  overwriteBytes := Interleaved.overwriteBytes f.n
  overwriteLanesAll := overwriteLanesAll f
  overwriteWithZeroes := Interleaved.overwriteWithZeroes f.n
  permuteAll := permuteAll f unr
  extractBytes := Interleaved.extractBytes f.n
  extractLanesAll := extractLanesAll f
  extractAndAddBytes := Interleaved.extractAndAddBytes f.n
  extractAndAddLanesAll := extractAndAddLanesAll f

/-! ### KangarooTwelve -/

/-- The variables `t0 ... t7` or `r0 ... r7` (x8:1214-1215). -/
structure R8 where
  (r0 r1 r2 r3 r4 r5 r6 r7 : Vec 8)

/-- The eight loads of `LoadAndTranspose8` (x8:1138-1145); `at` is the position of `dataAsLanes` in words. -/
def load8 (data : Bytes) (at_ : Nat) : Option R8 := do
  let t0 ← loadVec 8 data (8 * (at_ + 0 * 8192 / 8))
  let t1 ← loadVec 8 data (8 * (at_ + 1 * 8192 / 8))
  let t2 ← loadVec 8 data (8 * (at_ + 2 * 8192 / 8))
  let t3 ← loadVec 8 data (8 * (at_ + 3 * 8192 / 8))
  let t4 ← loadVec 8 data (8 * (at_ + 4 * 8192 / 8))
  let t5 ← loadVec 8 data (8 * (at_ + 5 * 8192 / 8))
  let t6 ← loadVec 8 data (8 * (at_ + 6 * 8192 / 8))
  let t7 ← loadVec 8 data (8 * (at_ + 7 * 8192 / 8))
  some ⟨t0, t1, t2, t3, t4, t5, t6, t7⟩

/-- The rest of `LoadAndTranspose8` (x8:1146-1169). -/
def transpose8 (t : R8) : R8 :=
  let r0 := unpacklo t.r0 t.r1
  let r1 := unpackhi t.r0 t.r1
  let r2 := unpacklo t.r2 t.r3
  let r3 := unpackhi t.r2 t.r3
  let r4 := unpacklo t.r4 t.r5
  let r5 := unpackhi t.r4 t.r5
  let r6 := unpacklo t.r6 t.r7
  let r7 := unpackhi t.r6 t.r7
  let t0 := shuffleI32x4 r0 r2 0x88
  let t1 := shuffleI32x4 r1 r3 0x88
  let t2 := shuffleI32x4 r0 r2 0xdd
  let t3 := shuffleI32x4 r1 r3 0xdd
  let t4 := shuffleI32x4 r4 r6 0x88
  let t5 := shuffleI32x4 r5 r7 0x88
  let t6 := shuffleI32x4 r4 r6 0xdd
  let t7 := shuffleI32x4 r5 r7 0xdd
  let r0 := shuffleI32x4 t0 t4 0x88
  let r1 := shuffleI32x4 t1 t5 0x88
  let r2 := shuffleI32x4 t2 t6 0x88
  let r3 := shuffleI32x4 t3 t7 0x88
  let r4 := shuffleI32x4 t0 t4 0xdd
  let r5 := shuffleI32x4 t1 t5 0xdd
  let r6 := shuffleI32x4 t2 t6 0xdd
  let r7 := shuffleI32x4 t3 t7 0xdd
  ⟨r0, r1, r2, r3, r4, r5, r6, r7⟩

/-- `XORdata4` (x8:1171-1175). -/
def xorData4 (idx : Nat → BitVec 32) (data : Bytes) (A : V (Vec 8)) : Option (V (Vec 8)) := do
  let ba ← addVar idx data A.ba 0
  let be ← addVar idx data A.be 1
  let bi ← addVar idx data A.bi 2
  let bo ← addVar idx data A.bo 3
  some { A with ba := ba, be := be, bi := bi, bo := bo }

/-- `XORdata16` (x8:1177-1195). -/
def xorData16 (data : Bytes) (A : V (Vec 8)) : Option (V (Vec 8)) := do
  let t ← load8 data 0
  let r := transpose8 t
  let A := { A with ba := xor A.ba r.r0, be := xor A.be r.r1, bi := xor A.bi r.r2, bo := xor A.bo r.r3,
                    bu := xor A.bu r.r4, ga := xor A.ga r.r5, ge := xor A.ge r.r6, gi := xor A.gi r.r7 }
  let t ← load8 data 8
  let r := transpose8 t
  some { A with go := xor A.go r.r0, gu := xor A.gu r.r1, ka := xor A.ka r.r2, ke := xor A.ke r.r3,
                ki := xor A.ki r.r4, ko := xor A.ko r.r5, ku := xor A.ku r.r6, ma := xor A.ma r.r7 }

/-- `XORdata17` (x8:1197-1199). -/
def xorData17 (idx : Nat → BitVec 32) (data : Bytes) (A : V (Vec 8)) : Option (V (Vec 8)) := do
  let A ← xorData16 data A
  let me ← addVar idx data A.me 16
  some { A with me := me }

/-- `XORdata21` (x8:1201-1206). -/
def xorData21 (idx : Nat → BitVec 32) (data : Bytes) (A : V (Vec 8)) : Option (V (Vec 8)) := do
  let A ← xorData17 idx data A
  let mi ← addVar idx data A.mi 17
  let mo ← addVar idx data A.mo 18
  let mu ← addVar idx data A.mu 19
  let sa ← addVar idx data A.sa 20
  some { A with mi := mi, mo := mo, mu := mu, sa := sa }

/-- `initializeState` (x8:1110-1135). -/
def initializeState : V (Vec 8) :=
  ⟨set1 0, set1 0, set1 0, set1 0, set1 0, set1 0, set1 0, set1 0, set1 0, set1 0, set1 0, set1 0, set1 0, set1 0, set1 0, set1 0,
   set1 0, set1 0, set1 0, set1 0, set1 0, set1 0, set1 0, set1 0, set1 0⟩

/-- `for(j = 0; j < (chunkSize - rate); j += rate) { XORdata; rounds12; input += rate; }` (x8:1220-1224, 1250-1254) from `j` on: the variables, and
the data from the pointer `input` on. -/
def leafLoop (rate : Nat) (xorData : Bytes → V (Vec 8) → Option (V (Vec 8))) (rounds : V (Vec 8) → V (Vec 8)) :
    Nat → Nat → Bytes → V (Vec 8) → Option (V (Vec 8) × Bytes)
  | 0, _, _, _ => none
  | fuel + 1, j, input, A =>
    if j < 8192 - rate then do
      let A ← xorData input A
      leafLoop rate xorData rounds fuel (j + rate) (input.drop rate) (rounds A)
    else some (A, input)

/-- `index` during the absorption (x8:1219, 1249). -/
def leafIndex : Nat → BitVec 32 :=
  setEpi32 [7 * (8192 / 8), 6 * (8192 / 8), 5 * (8192 / 8), 4 * (8192 / 8), 3 * (8192 / 8), 2 * (8192 / 8), 1 * (8192 / 8), 0 * (8192 / 8)]

/-- The last block and the output of `KeccakP1600times8_KT128ProcessLeaves` (x8:1226-1235). -/
def finish128 (rounds : V (Vec 8) → V (Vec 8)) (A : V (Vec 8)) (input out : Bytes) : Option Bytes := do
  let A ← xorData16 input A
  let A := { A with me := xor A.me (set1 0x0B) }
  let A := { A with sa := xor A.sa (set1 0x8000000000000000) }
  let A := rounds A
  let index := setEpi32 [7 * 4, 6 * 4, 5 * 4, 4 * 4, 3 * 4, 2 * 4, 1 * 4, 0 * 4]
  let out ← scatter out (8 * 0) index A.ba
  let out ← scatter out (8 * 1) index A.be
  let out ← scatter out (8 * 2) index A.bi
  scatter out (8 * 3) index A.bo

/-- `KeccakP1600times8_KT128ProcessLeaves` (x8:1208-1236): the output buffer. -/
def kt128ProcessLeaves (unr : Unrolling) (input out : Bytes) : Option Bytes := do
  let rounds := rounds12 (ops 8) unr
  let (A, input) ← leafLoop (21 * 8) (xorData21 leafIndex) rounds 8192 0 input initializeState
  finish128 rounds A input out

/-- The last block and the output of `KeccakP1600times8_KT256ProcessLeaves` (x8:1256-1269). -/
def finish256 (rounds : V (Vec 8) → V (Vec 8)) (A : V (Vec 8)) (input out : Bytes) : Option Bytes := do
  let A ← xorData4 leafIndex input A
  let A := { A with bu := xor A.bu (set1 0x0B) }
  let A := { A with me := xor A.me (set1 0x8000000000000000) }
  let A := rounds A
  let index := setEpi32 [7 * 8, 6 * 8, 5 * 8, 4 * 8, 3 * 8, 2 * 8, 1 * 8, 0 * 8]
  let out ← scatter out (8 * 0) index A.ba
  let out ← scatter out (8 * 1) index A.be
  let out ← scatter out (8 * 2) index A.bi
  let out ← scatter out (8 * 3) index A.bo
  let out ← scatter out (8 * 4) index A.bu
  let out ← scatter out (8 * 5) index A.ga
  let out ← scatter out (8 * 6) index A.ge
  scatter out (8 * 7) index A.gi

/-- `KeccakP1600times8_KT256ProcessLeaves` (x8:1238-1270): the output buffer. -/
def kt256ProcessLeaves (unr : Unrolling) (input out : Bytes) : Option Bytes := do
  let rounds := rounds12 (ops 8) unr
  let (A, input) ← leafLoop (17 * 8) (xorData17 leafIndex) rounds 8192 0 input initializeState
  finish256 rounds A input out

end Avx512
