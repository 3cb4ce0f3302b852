import Verif.Model.SimdRounds
import Verif.Model.Interleaved
import Verif.Model.PlSnPFallback

/-!
# Two Keccak-p[1600] in parallel in 128-bit registers

Models `lib/low/KeccakP-1600-times2/SIMD128/KeccakP-1600-times2-SIMD128.c` (cited by line number) and its header
`KeccakP-1600-times2-SnP.h`.  The functions on the bytes of one state are in `Model/Interleaved.lean`, the loops over the rounds and
`copyFromState`, `copyToState` in `Model/SimdRounds.lean`.

* The state is the list of the bytes of the array `A` of 25 registers.
* The configurations of the repository all define `KeccakP1600times2_useSSE` and `KeccakP1600times2_useSSE2`; `useXOP` and the unrolling
  are parameters.
* The text in `#if 0` or in the `#else` of `#if 1` is not modelled.
* The round macros are transcribed assignment by assignment, by a script, for arbitrary operations on registers.
* Data given to the lanes functions do not overlap the state; `input` and `output` are separate buffers.
-/

namespace Times2

open KeccakP1600 (Lane)
open KeccakP1600.Opt64 (Unrolling)
open Simd
open PlSnPFallback (Par Perm)

variable {α : Type}

/-- `prepareTheta` (KeccakP-1600-times2-SIMD128.c:472-477). -/
def prepareTheta (O : Ops α) (A : V α) : C5 α :=
  let Aba := A.ba
  let Abe := A.be
  let Abi := A.bi
  let Abo := A.bo
  let Abu := A.bu
  let Aga := A.ga
  let Age := A.ge
  let Agi := A.gi
  let Ago := A.go
  let Agu := A.gu
  let Aka := A.ka
  let Ake := A.ke
  let Aki := A.ki
  let Ako := A.ko
  let Aku := A.ku
  let Ama := A.ma
  let Ame := A.me
  let Ami := A.mi
  let Amo := A.mo
  let Amu := A.mu
  let Asa := A.sa
  let Ase := A.se
  let Asi := A.si
  let Aso := A.so
  let Asu := A.su
  let Ca := O.xor Aba (O.xor Aga (O.xor Aka (O.xor Ama Asa)))
  let Ce := O.xor Abe (O.xor Age (O.xor Ake (O.xor Ame Ase)))
  let Ci := O.xor Abi (O.xor Agi (O.xor Aki (O.xor Ami Asi)))
  let Co := O.xor Abo (O.xor Ago (O.xor Ako (O.xor Amo Aso)))
  let Cu := O.xor Abu (O.xor Agu (O.xor Aku (O.xor Amu Asu)))
  ⟨Ca, Ce, Ci, Co, Cu⟩

/-- `thetaRhoPiChiIotaPrepareTheta(i, A, E)` (KeccakP-1600-times2-SIMD128.c:481-593); `rc` is `KeccakF1600RoundConstants[i]`.
Returns the new `A` variables, the `E` variables and the `C` variables. -/
def roundPrep (O : Ops α) (rc : Lane) (A : V α) (c : C5 α) : V α × V α × C5 α :=
  let Ca := c.a
  let Ce := c.e
  let Ci := c.i
  let Co := c.o
  let Cu := c.u
  let Aba := A.ba
  let Abe := A.be
  let Abi := A.bi
  let Abo := A.bo
  let Abu := A.bu
  let Aga := A.ga
  let Age := A.ge
  let Agi := A.gi
  let Ago := A.go
  let Agu := A.gu
  let Aka := A.ka
  let Ake := A.ke
  let Aki := A.ki
  let Ako := A.ko
  let Aku := A.ku
  let Ama := A.ma
  let Ame := A.me
  let Ami := A.mi
  let Amo := A.mo
  let Amu := A.mu
  let Asa := A.sa
  let Ase := A.se
  let Asi := A.si
  let Aso := A.so
  let Asu := A.su
  let Da := O.xor Cu (O.rol Ce 1)
  let De := O.xor Ca (O.rol Ci 1)
  let Di := O.xor Ce (O.rol Co 1)
  let Do := O.xor Ci (O.rol Cu 1)
  let Du := O.xor Co (O.rol Ca 1)
  let Aba := O.xor Aba Da
  let Bba := Aba
  let Age := O.xor Age De
  let Bbe := O.rol Age 44
  let Aki := O.xor Aki Di
  let Bbi := O.rol Aki 43
  let Eba := O.xor Bba (O.andnot Bbe Bbi)
  let Eba := O.xor Eba (O.const rc)
  let Ca := Eba
  let Amo := O.xor Amo Do
  let Bbo := O.rol Amo 21
  let Ebe := O.xor Bbe (O.andnot Bbi Bbo)
  let Ce := Ebe
  let Asu := O.xor Asu Du
  let Bbu := O.rol Asu 14
  let Ebi := O.xor Bbi (O.andnot Bbo Bbu)
  let Ci := Ebi
  let Ebo := O.xor Bbo (O.andnot Bbu Bba)
  let Co := Ebo
  let Ebu := O.xor Bbu (O.andnot Bba Bbe)
  let Cu := Ebu
  let Abo := O.xor Abo Do
  let Bga := O.rol Abo 28
  let Agu := O.xor Agu Du
  let Bge := O.rol Agu 20
  let Aka := O.xor Aka Da
  let Bgi := O.rol Aka 3
  let Ega := O.xor Bga (O.andnot Bge Bgi)
  let Ca := O.xor Ca Ega
  let Ame := O.xor Ame De
  let Bgo := O.rol Ame 45
  let Ege := O.xor Bge (O.andnot Bgi Bgo)
  let Ce := O.xor Ce Ege
  let Asi := O.xor Asi Di
  let Bgu := O.rol Asi 61
  let Egi := O.xor Bgi (O.andnot Bgo Bgu)
  let Ci := O.xor Ci Egi
  let Ego := O.xor Bgo (O.andnot Bgu Bga)
  let Co := O.xor Co Ego
  let Egu := O.xor Bgu (O.andnot Bga Bge)
  let Cu := O.xor Cu Egu
  let Abe := O.xor Abe De
  let Bka := O.rol Abe 1
  let Agi := O.xor Agi Di
  let Bke := O.rol Agi 6
  let Ako := O.xor Ako Do
  let Bki := O.rol Ako 25
  let Eka := O.xor Bka (O.andnot Bke Bki)
  let Ca := O.xor Ca Eka
  let Amu := O.xor Amu Du
  let Bko := O.rol8 Amu
  let Eke := O.xor Bke (O.andnot Bki Bko)
  let Ce := O.xor Ce Eke
  let Asa := O.xor Asa Da
  let Bku := O.rol Asa 18
  let Eki := O.xor Bki (O.andnot Bko Bku)
  let Ci := O.xor Ci Eki
  let Eko := O.xor Bko (O.andnot Bku Bka)
  let Co := O.xor Co Eko
  let Eku := O.xor Bku (O.andnot Bka Bke)
  let Cu := O.xor Cu Eku
  let Abu := O.xor Abu Du
  let Bma := O.rol Abu 27
  let Aga := O.xor Aga Da
  let Bme := O.rol Aga 36
  let Ake := O.xor Ake De
  let Bmi := O.rol Ake 10
  let Ema := O.xor Bma (O.andnot Bme Bmi)
  let Ca := O.xor Ca Ema
  let Ami := O.xor Ami Di
  let Bmo := O.rol Ami 15
  let Eme := O.xor Bme (O.andnot Bmi Bmo)
  let Ce := O.xor Ce Eme
  let Aso := O.xor Aso Do
  let Bmu := O.rol56 Aso
  let Emi := O.xor Bmi (O.andnot Bmo Bmu)
  let Ci := O.xor Ci Emi
  let Emo := O.xor Bmo (O.andnot Bmu Bma)
  let Co := O.xor Co Emo
  let Emu := O.xor Bmu (O.andnot Bma Bme)
  let Cu := O.xor Cu Emu
  let Abi := O.xor Abi Di
  let Bsa := O.rol Abi 62
  let Ago := O.xor Ago Do
  let Bse := O.rol Ago 55
  let Aku := O.xor Aku Du
  let Bsi := O.rol Aku 39
  let Esa := O.xor Bsa (O.andnot Bse Bsi)
  let Ca := O.xor Ca Esa
  let Ama := O.xor Ama Da
  let Bso := O.rol Ama 41
  let Ese := O.xor Bse (O.andnot Bsi Bso)
  let Ce := O.xor Ce Ese
  let Ase := O.xor Ase De
  let Bsu := O.rol Ase 2
  let Esi := O.xor Bsi (O.andnot Bso Bsu)
  let Ci := O.xor Ci Esi
  let Eso := O.xor Bso (O.andnot Bsu Bsa)
  let Co := O.xor Co Eso
  let Esu := O.xor Bsu (O.andnot Bsa Bse)
  let Cu := O.xor Cu Esu
  (⟨Aba, Abe, Abi, Abo, Abu, Aga, Age, Agi, Ago, Agu, Aka, Ake, Aki, Ako, Aku, Ama, Ame, Ami, Amo, Amu, Asa, Ase, Asi, Aso, Asu⟩,
   ⟨Eba, Ebe, Ebi, Ebo, Ebu, Ega, Ege, Egi, Ego, Egu, Eka, Eke, Eki, Eko, Eku, Ema, Eme, Emi, Emo, Emu, Esa, Ese, Esi, Eso, Esu⟩, ⟨Ca, Ce, Ci, Co, Cu⟩)

/-- `thetaRhoPiChiIota(i, A, E)` (KeccakP-1600-times2-SIMD128.c:597-684); `rc` is `KeccakF1600RoundConstants[i]`.
Returns the new `A` variables, the `E` variables. -/
def round (O : Ops α) (rc : Lane) (A : V α) (c : C5 α) : V α × V α :=
  let Ca := c.a
  let Ce := c.e
  let Ci := c.i
  let Co := c.o
  let Cu := c.u
  let Aba := A.ba
  let Abe := A.be
  let Abi := A.bi
  let Abo := A.bo
  let Abu := A.bu
  let Aga := A.ga
  let Age := A.ge
  let Agi := A.gi
  let Ago := A.go
  let Agu := A.gu
  let Aka := A.ka
  let Ake := A.ke
  let Aki := A.ki
  let Ako := A.ko
  let Aku := A.ku
  let Ama := A.ma
  let Ame := A.me
  let Ami := A.mi
  let Amo := A.mo
  let Amu := A.mu
  let Asa := A.sa
  let Ase := A.se
  let Asi := A.si
  let Aso := A.so
  let Asu := A.su
  let Da := O.xor Cu (O.rol Ce 1)
  let De := O.xor Ca (O.rol Ci 1)
  let Di := O.xor Ce (O.rol Co 1)
  let Do := O.xor Ci (O.rol Cu 1)
  let Du := O.xor Co (O.rol Ca 1)
  let Aba := O.xor Aba Da
  let Bba := Aba
  let Age := O.xor Age De
  let Bbe := O.rol Age 44
  let Aki := O.xor Aki Di
  let Bbi := O.rol Aki 43
  let Eba := O.xor Bba (O.andnot Bbe Bbi)
  let Eba := O.xor Eba (O.const rc)
  let Amo := O.xor Amo Do
  let Bbo := O.rol Amo 21
  let Ebe := O.xor Bbe (O.andnot Bbi Bbo)
  let Asu := O.xor Asu Du
  let Bbu := O.rol Asu 14
  let Ebi := O.xor Bbi (O.andnot Bbo Bbu)
  let Ebo := O.xor Bbo (O.andnot Bbu Bba)
  let Ebu := O.xor Bbu (O.andnot Bba Bbe)
  let Abo := O.xor Abo Do
  let Bga := O.rol Abo 28
  let Agu := O.xor Agu Du
  let Bge := O.rol Agu 20
  let Aka := O.xor Aka Da
  let Bgi := O.rol Aka 3
  let Ega := O.xor Bga (O.andnot Bge Bgi)
  let Ame := O.xor Ame De
  let Bgo := O.rol Ame 45
  let Ege := O.xor Bge (O.andnot Bgi Bgo)
  let Asi := O.xor Asi Di
  let Bgu := O.rol Asi 61
  let Egi := O.xor Bgi (O.andnot Bgo Bgu)
  let Ego := O.xor Bgo (O.andnot Bgu Bga)
  let Egu := O.xor Bgu (O.andnot Bga Bge)
  let Abe := O.xor Abe De
  let Bka := O.rol Abe 1
  let Agi := O.xor Agi Di
  let Bke := O.rol Agi 6
  let Ako := O.xor Ako Do
  let Bki := O.rol Ako 25
  let Eka := O.xor Bka (O.andnot Bke Bki)
  let Amu := O.xor Amu Du
  let Bko := O.rol8 Amu
  let Eke := O.xor Bke (O.andnot Bki Bko)
  let Asa := O.xor Asa Da
  let Bku := O.rol Asa 18
  let Eki := O.xor Bki (O.andnot Bko Bku)
  let Eko := O.xor Bko (O.andnot Bku Bka)
  let Eku := O.xor Bku (O.andnot Bka Bke)
  let Abu := O.xor Abu Du
  let Bma := O.rol Abu 27
  let Aga := O.xor Aga Da
  let Bme := O.rol Aga 36
  let Ake := O.xor Ake De
  let Bmi := O.rol Ake 10
  let Ema := O.xor Bma (O.andnot Bme Bmi)
  let Ami := O.xor Ami Di
  let Bmo := O.rol Ami 15
  let Eme := O.xor Bme (O.andnot Bmi Bmo)
  let Aso := O.xor Aso Do
  let Bmu := O.rol56 Aso
  let Emi := O.xor Bmi (O.andnot Bmo Bmu)
  let Emo := O.xor Bmo (O.andnot Bmu Bma)
  let Emu := O.xor Bmu (O.andnot Bma Bme)
  let Abi := O.xor Abi Di
  let Bsa := O.rol Abi 62
  let Ago := O.xor Ago Do
  let Bse := O.rol Ago 55
  let Aku := O.xor Aku Du
  let Bsi := O.rol Aku 39
  let Esa := O.xor Bsa (O.andnot Bse Bsi)
  let Ama := O.xor Ama Da
  let Bso := O.rol Ama 41
  let Ese := O.xor Bse (O.andnot Bsi Bso)
  let Ase := O.xor Ase De
  let Bsu := O.rol Ase 2
  let Esi := O.xor Bsi (O.andnot Bso Bsu)
  let Eso := O.xor Bso (O.andnot Bsu Bsa)
  let Esu := O.xor Bsu (O.andnot Bsa Bse)
  (⟨Aba, Abe, Abi, Abo, Abu, Aga, Age, Agi, Ago, Agu, Aka, Ake, Aki, Ako, Aku, Ama, Ame, Ami, Amo, Amu, Asa, Ase, Asi, Aso, Asu⟩,
   ⟨Eba, Ebe, Ebi, Ebo, Ebu, Ega, Ege, Egi, Ego, Egu, Eka, Eke, Eki, Eko, Eku, Ema, Eme, Emi, Emo, Emu, Esa, Ese, Esi, Eso, Esu⟩)

/-- `KeccakF1600RoundConstants` (KeccakP-1600-times2-SIMD128.c:686-710). -/
def roundConstants : List Lane := [
  0x0000000000000001, 0x0000000000008082, 0x800000000000808a,
  0x8000000080008000, 0x000000000000808b, 0x0000000080000001,
  0x8000000080008081, 0x8000000000008009, 0x000000000000008a,
  0x0000000000000088, 0x0000000080008009, 0x000000008000000a,
  0x000000008000808b, 0x800000000000008b, 0x8000000000008089,
  0x8000000000008003, 0x8000000000008002, 0x8000000000000080,
  0x000000000000800a, 0x800000008000000a, 0x8000000080008081,
  0x8000000000008080, 0x0000000080000001, 0x8000000080008008]

/-- `rho8` (58). -/
def rho8 : Vec 2 := set2 0x0E0D0C0B0A09080F 0x0605040302010007

/-- `rho56` (59). -/
def rho56 : Vec 2 := set2 0x080F0E0D0C0B0A09 0x0007060504030201

/-- The macros of lines 43-72, for `KeccakP1600times2_useXOP` or not. -/
def ops (xop : Bool) : Ops (Vec 2) where
  xor := xor
  andnot := andnot
  rol a o := if xop then roti a o else or (slli a o) (srli a (64 - o))
  rol8 a := if xop then roti a 8 else shuffleEpi8 a rho8
  rol56 a := if xop then roti a 56 else shuffleEpi8 a rho56
  const := set1

/-- The round macros, with the constants. -/
def rounds (xop : Bool) : Rounds (Vec 2) where
  prepareTheta := prepareTheta (ops xop)
  roundPrep i := roundPrep (ops xop) (roundConstants.getD i 0)
  round i := round (ops xop) (roundConstants.getD i 0)

/-- The structure of `AddLanesAll`, `OverwriteLanesAll`, `ExtractAndAddLanesAll` (123-158, 199-234, 415-450): `f(i)` for the lanes `i`. -/
def overLanes (f : Nat → Bytes → Option Bytes) (laneCount : Nat) (m : Bytes) : Option Bytes :=
  if laneCount ≥ 17 then do
    let m ← seq f [0, 1, 2, 3, 4, 5, 6, 7, 8, 9, 10, 11, 12, 13, 14, 15, 16] m
    if laneCount ≥ 21 then do
      let m ← seq f [17, 18, 19, 20] m
      forTo f 21 laneCount m
    else forTo f 17 laneCount m
  else forTo f 0 laneCount m

/-- The macro `XOR_In` (122, 874). -/
def xorIn (data : Bytes) (laneOffset p : Nat) (mem : Bytes) : Option Bytes := do
  let v ← loadVec 2 mem (16 * p)
  let d1 ← loadWord data (ptr laneOffset 1 + 8 * p)
  let d0 ← loadWord data (8 * p)
  storeVec mem (16 * p) (xor v (set2 d1 d0))

/-- `KeccakP1600times2_AddLanesAll` (116-159). -/
def addLanesAll (mem data : Bytes) (laneCount laneOffset : Nat) : Option Bytes := overLanes (xorIn data laneOffset) laneCount mem

/-- The macro `OverWr` (198). -/
def overWr (data : Bytes) (laneOffset p : Nat) (mem : Bytes) : Option Bytes := do
  let d1 ← loadWord data (ptr laneOffset 1 + 8 * p)
  let d0 ← loadWord data (8 * p)
  storeVec mem (16 * p) (set2 d1 d0)

/-- `KeccakP1600times2_OverwriteLanesAll` (192-235). -/
def overwriteLanesAll (mem data : Bytes) (laneCount laneOffset : Nat) : Option Bytes :=
  overLanes (overWr data laneOffset) laneCount mem

/-- The macro `Extr` (292-294). -/
def extr (mem : Bytes) (laneOffset p : Nat) (out : Bytes) : Option Bytes := do
  let lanes ← loadVec 2 mem (16 * p)
  let out ← storeWord out (8 * p) (lanes 0)
  storeWord out (ptr laneOffset 1 + 8 * p) (lanes 1)

/-- The macro `Extr2` (297-302). -/
def extr2 (mem : Bytes) (laneOffset p : Nat) (out : Bytes) : Option Bytes := do
  let lanes0 ← loadVec 2 mem (16 * p)
  let lanes1 ← loadVec 2 mem (16 * (p + 1))
  let lanes := unpacklo lanes0 lanes1
  let lanes0 := unpackhi lanes0 lanes1
  let out ← storeVec out (8 * p) lanes
  storeVec out (ptr laneOffset 1 + 8 * p) lanes0

/-- `KeccakP1600times2_ExtractLanesAll` (284-363), for `KeccakP1600times2_useSSE2`. -/
def extractLanesAll (mem out : Bytes) (laneCount laneOffset : Nat) : Option Bytes :=
  if laneCount ≥ 16 then do
    let out ← seq (extr2 mem laneOffset) [0, 2, 4, 6, 8, 10, 12, 14] out
    if laneCount ≥ 20 then do
      let out ← seq (extr2 mem laneOffset) [16, 18] out
      forTo (extr mem laneOffset) 20 laneCount out
    else forTo (extr mem laneOffset) 16 laneCount out
  else forTo (extr mem laneOffset) 0 laneCount out

/-- The macro `ExtrXOR` (413); `stateAsLanes` is here an array of 64-bit lanes. -/
def extrXor (mem input : Bytes) (laneOffset p : Nat) (out : Bytes) : Option Bytes := do
  let x0 ← loadWord input (8 * p)
  let s0 ← loadWord mem (8 * (2 * p))
  let out ← storeWord out (8 * p) (x0 ^^^ s0)
  let x1 ← loadWord input (ptr laneOffset 1 + 8 * p)
  let s1 ← loadWord mem (8 * (2 * p + 1))
  storeWord out (ptr laneOffset 1 + 8 * p) (x1 ^^^ s1)

/-- `KeccakP1600times2_ExtractAndAddLanesAll` (404-451). -/
def extractAndAddLanesAll (mem input out : Bytes) (laneCount laneOffset : Nat) : Option Bytes :=
  overLanes (extrXor mem input laneOffset) laneCount out

/-- What the uninitialised local variables contain when a function is entered. -/
structure Junk where
  E : V (Vec 2)
  c : C5 (Vec 2)

/-- `KeccakP1600times2_PermuteAll_24rounds`, `_12rounds`, `_6rounds`, `_4rounds` (800-862). -/
def permuteAll (xop : Bool) (unr : Unrolling) (J : Junk) (p : Perm) (mem : Bytes) : Option Bytes :=
  match p with
  | .all => permute (rounds24 (rounds xop) unr) J.E J.c mem
  | .r12 => permute (rounds12 (rounds xop) unr) J.E J.c mem
  | .r6 => permute (rounds6 (rounds xop) unr) J.E J.c mem
  | .r4 => permute (rounds4 (rounds xop) unr) J.E J.c mem

/-- The body of the first loop of `KeccakF1600times2_FastLoop_Absorb` (871-898). -/
def body21 (xop : Bool) (unr : Unrolling) (J : Junk) (laneOffset : Nat) (data mem : Bytes) : Option Bytes := do
  let mem ← seq (xorIn data laneOffset) [0, 1, 2, 3, 4, 5, 6, 7, 8, 9, 10, 11, 12, 13, 14, 15, 16, 17, 18, 19, 20] mem
  permuteAll xop unr J .all mem

/-- The body of the second loop of `KeccakF1600times2_FastLoop_Absorb` (948-949). -/
def body (xop : Bool) (unr : Unrolling) (J : Junk) (laneCount laneOffset : Nat) (data mem : Bytes) : Option Bytes := do
  let mem ← addLanesAll mem data laneCount laneOffset
  permuteAll xop unr J .all mem

/-- `KeccakF1600times2_FastLoop_Absorb` (864-956). -/
def fastLoopAbsorb (xop : Bool) (unr : Unrolling) (J : Junk) (fuel : Nat) (mem : Bytes)
    (laneCount laneOffsetParallel laneOffsetSerial : Nat) (data : Bytes) (dataByteLen : Nat) : Option (Bytes × Nat) :=
  if laneCount = 21 then
    absorbLoop ((laneOffsetParallel + laneCount) * 8 % 2 ^ 32) (laneOffsetSerial * 8 % 2 ^ 32) (laneOffsetSerial * 8 % 2 ^ 32)
      (body21 xop unr J laneOffsetParallel) fuel data dataByteLen mem
  else
    absorbLoop ((laneOffsetParallel + laneCount) * 8 % 2 ^ 32) (laneOffsetSerial * 8 % 2 ^ 32) (laneOffsetSerial * 8 % 2 ^ 32)
      (body xop unr J laneCount laneOffsetParallel) fuel data dataByteLen mem

/-- The implementation (SIMD128/KeccakP-1600-times2-SnP.h:26-51). -/
def impl (xop : Bool) (unr : Unrolling) (J : Junk) : Par where
  par := 2
  size := 400
  align := 16
  lane := 8
  initAll := Interleaved.initAll
  addByte := Interleaved.addByte 2
  addBytes := Interleaved.addBytes 2
  addLanesAll := addLanesAll
  overwriteBytes := Interleaved.overwriteBytes 2
  overwriteLanesAll := overwriteLanesAll
  overwriteWithZeroes := Interleaved.overwriteWithZeroes 2
  permuteAll := permuteAll xop unr J
  extractBytes := Interleaved.extractBytes 2
  extractLanesAll := extractLanesAll
  extractAndAddBytes := Interleaved.extractAndAddBytes 2
  extractAndAddLanesAll := extractAndAddLanesAll

end Times2
