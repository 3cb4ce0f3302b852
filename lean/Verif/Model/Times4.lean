import Verif.Model.SimdRounds
import Verif.Model.Interleaved
import Verif.Model.PlSnPFallback

/-!
# Four Keccak-p[1600] in parallel in 256-bit registers

Models `lib/low/KeccakP-1600-times4/AVX2/KeccakP-1600-times4-SIMD256.c` (cited by line number) and its header
`KeccakP-1600-times4-SnP.h`.  The functions on the bytes of one state are in `Model/Interleaved.lean`, the loops over the rounds and
`copyFromState`, `copyToState` in `Model/SimdRounds.lean`.

* The state is the list of the bytes of the array `A` of 25 registers.
* The configurations of the repository all define `KeccakP1600times4_useAVX2`; the unrolling is a parameter.
* The functions for Kravatte at the end of the file are in `Model/Times4Kravatte.lean`.
* The text in `#if 0` is not modelled.
* The round macros are transcribed assignment by assignment, by a script, for arbitrary operations on registers.
* Data given to the lanes functions do not overlap the state; `input` and `output` are separate buffers.
-/

namespace Times4

open KeccakP1600 (Lane)
open KeccakP1600.Opt64 (Unrolling)
open Simd
open PlSnPFallback (Par Perm)

variable {α : Type}

/-- `prepareTheta` (KeccakP-1600-times4-SIMD256.c:467-472). -/
def prepareTheta (O : Ops α) (A : V α) : C5 α :=
  let Aba := A.ba
  let Abe := A.be
  let Abi := A.bi
  let Abo := A.bo
  let Abu := A.bu
  let Aga := A.ga
  let Age := A.ge
  let Agi := A.gi
  let Ago := A.go
  let Agu := A.gu
  let Aka := A.ka
  let Ake := A.ke
  let Aki := A.ki
  let Ako := A.ko
  let Aku := A.ku
  let Ama := A.ma
  let Ame := A.me
  let Ami := A.mi
  let Amo := A.mo
  let Amu := A.mu
  let Asa := A.sa
  let Ase := A.se
  let Asi := A.si
  let Aso := A.so
  let Asu := A.su
  let Ca := O.xor Aba (O.xor Aga (O.xor Aka (O.xor Ama Asa)))
  let Ce := O.xor Abe (O.xor Age (O.xor Ake (O.xor Ame Ase)))
  let Ci := O.xor Abi (O.xor Agi (O.xor Aki (O.xor Ami Asi)))
  let Co := O.xor Abo (O.xor Ago (O.xor Ako (O.xor Amo Aso)))
  let Cu := O.xor Abu (O.xor Agu (O.xor Aku (O.xor Amu Asu)))
  ⟨Ca, Ce, Ci, Co, Cu⟩

/-- `thetaRhoPiChiIotaPrepareTheta(i, A, E)` (KeccakP-1600-times4-SIMD256.c:476-593); `rc` is `KeccakF1600RoundConstants[i]`.
Returns the new `A` variables, the `E` variables and the `C` variables. -/
def roundPrep (O : Ops α) (rc : Lane) (A : V α) (c : C5 α) : V α × V α × C5 α :=
  let Ca := c.a
  let Ce := c.e
  let Ci := c.i
  let Co := c.o
  let Cu := c.u
  let Aba := A.ba
  let Abe := A.be
  let Abi := A.bi
  let Abo := A.bo
  let Abu := A.bu
  let Aga := A.ga
  let Age := A.ge
  let Agi := A.gi
  let Ago := A.go
  let Agu := A.gu
  let Aka := A.ka
  let Ake := A.ke
  let Aki := A.ki
  let Ako := A.ko
  let Aku := A.ku
  let Ama := A.ma
  let Ame := A.me
  let Ami := A.mi
  let Amo := A.mo
  let Amu := A.mu
  let Asa := A.sa
  let Ase := A.se
  let Asi := A.si
  let Aso := A.so
  let Asu := A.su
  let Ce1 := O.rol Ce 1
  let Da := O.xor Cu Ce1
  let Ci1 := O.rol Ci 1
  let De := O.xor Ca Ci1
  let Co1 := O.rol Co 1
  let Di := O.xor Ce Co1
  let Cu1 := O.rol Cu 1
  let Do := O.xor Ci Cu1
  let Ca1 := O.rol Ca 1
  let Du := O.xor Co Ca1
  let Aba := O.xor Aba Da
  let Bba := Aba
  let Age := O.xor Age De
  let Bbe := O.rol Age 44
  let Aki := O.xor Aki Di
  let Bbi := O.rol Aki 43
  let Eba := O.xor Bba (O.andnot Bbe Bbi)
  let Eba := O.xor Eba (O.const rc)
  let Ca := Eba
  let Amo := O.xor Amo Do
  let Bbo := O.rol Amo 21
  let Ebe := O.xor Bbe (O.andnot Bbi Bbo)
  let Ce := Ebe
  let Asu := O.xor Asu Du
  let Bbu := O.rol Asu 14
  let Ebi := O.xor Bbi (O.andnot Bbo Bbu)
  let Ci := Ebi
  let Ebo := O.xor Bbo (O.andnot Bbu Bba)
  let Co := Ebo
  let Ebu := O.xor Bbu (O.andnot Bba Bbe)
  let Cu := Ebu
  let Abo := O.xor Abo Do
  let Bga := O.rol Abo 28
  let Agu := O.xor Agu Du
  let Bge := O.rol Agu 20
  let Aka := O.xor Aka Da
  let Bgi := O.rol Aka 3
  let Ega := O.xor Bga (O.andnot Bge Bgi)
  let Ca := O.xor Ca Ega
  let Ame := O.xor Ame De
  let Bgo := O.rol Ame 45
  let Ege := O.xor Bge (O.andnot Bgi Bgo)
  let Ce := O.xor Ce Ege
  let Asi := O.xor Asi Di
  let Bgu := O.rol Asi 61
  let Egi := O.xor Bgi (O.andnot Bgo Bgu)
  let Ci := O.xor Ci Egi
  let Ego := O.xor Bgo (O.andnot Bgu Bga)
  let Co := O.xor Co Ego
  let Egu := O.xor Bgu (O.andnot Bga Bge)
  let Cu := O.xor Cu Egu
  let Abe := O.xor Abe De
  let Bka := O.rol Abe 1
  let Agi := O.xor Agi Di
  let Bke := O.rol Agi 6
  let Ako := O.xor Ako Do
  let Bki := O.rol Ako 25
  let Eka := O.xor Bka (O.andnot Bke Bki)
  let Ca := O.xor Ca Eka
  let Amu := O.xor Amu Du
  let Bko := O.rol8 Amu
  let Eke := O.xor Bke (O.andnot Bki Bko)
  let Ce := O.xor Ce Eke
  let Asa := O.xor Asa Da
  let Bku := O.rol Asa 18
  let Eki := O.xor Bki (O.andnot Bko Bku)
  let Ci := O.xor Ci Eki
  let Eko := O.xor Bko (O.andnot Bku Bka)
  let Co := O.xor Co Eko
  let Eku := O.xor Bku (O.andnot Bka Bke)
  let Cu := O.xor Cu Eku
  let Abu := O.xor Abu Du
  let Bma := O.rol Abu 27
  let Aga := O.xor Aga Da
  let Bme := O.rol Aga 36
  let Ake := O.xor Ake De
  let Bmi := O.rol Ake 10
  let Ema := O.xor Bma (O.andnot Bme Bmi)
  let Ca := O.xor Ca Ema
  let Ami := O.xor Ami Di
  let Bmo := O.rol Ami 15
  let Eme := O.xor Bme (O.andnot Bmi Bmo)
  let Ce := O.xor Ce Eme
  let Aso := O.xor Aso Do
  let Bmu := O.rol56 Aso
  let Emi := O.xor Bmi (O.andnot Bmo Bmu)
  let Ci := O.xor Ci Emi
  let Emo := O.xor Bmo (O.andnot Bmu Bma)
  let Co := O.xor Co Emo
  let Emu := O.xor Bmu (O.andnot Bma Bme)
  let Cu := O.xor Cu Emu
  let Abi := O.xor Abi Di
  let Bsa := O.rol Abi 62
  let Ago := O.xor Ago Do
  let Bse := O.rol Ago 55
  let Aku := O.xor Aku Du
  let Bsi := O.rol Aku 39
  let Esa := O.xor Bsa (O.andnot Bse Bsi)
  let Ca := O.xor Ca Esa
  let Ama := O.xor Ama Da
  let Bso := O.rol Ama 41
  let Ese := O.xor Bse (O.andnot Bsi Bso)
  let Ce := O.xor Ce Ese
  let Ase := O.xor Ase De
  let Bsu := O.rol Ase 2
  let Esi := O.xor Bsi (O.andnot Bso Bsu)
  let Ci := O.xor Ci Esi
  let Eso := O.xor Bso (O.andnot Bsu Bsa)
  let Co := O.xor Co Eso
  let Esu := O.xor Bsu (O.andnot Bsa Bse)
  let Cu := O.xor Cu Esu
  (⟨Aba, Abe, Abi, Abo, Abu, Aga, Age, Agi, Ago, Agu, Aka, Ake, Aki, Ako, Aku, Ama, Ame, Ami, Amo, Amu, Asa, Ase, Asi, Aso, Asu⟩,
   ⟨Eba, Ebe, Ebi, Ebo, Ebu, Ega, Ege, Egi, Ego, Egu, Eka, Eke, Eki, Eko, Eku, Ema, Eme, Emi, Emo, Emu, Esa, Ese, Esi, Eso, Esu⟩, ⟨Ca, Ce, Ci, Co, Cu⟩)

/-- `thetaRhoPiChiIota(i, A, E)` (KeccakP-1600-times4-SIMD256.c:597-689); `rc` is `KeccakF1600RoundConstants[i]`.
Returns the new `A` variables, the `E` variables. -/
def round (O : Ops α) (rc : Lane) (A : V α) (c : C5 α) : V α × V α :=
  let Ca := c.a
  let Ce := c.e
  let Ci := c.i
  let Co := c.o
  let Cu := c.u
  let Aba := A.ba
  let Abe := A.be
  let Abi := A.bi
  let Abo := A.bo
  let Abu := A.bu
  let Aga := A.ga
  let Age := A.ge
  let Agi := A.gi
  let Ago := A.go
  let Agu := A.gu
  let Aka := A.ka
  let Ake := A.ke
  let Aki := A.ki
  let Ako := A.ko
  let Aku := A.ku
  let Ama := A.ma
  let Ame := A.me
  let Ami := A.mi
  let Amo := A.mo
  let Amu := A.mu
  let Asa := A.sa
  let Ase := A.se
  let Asi := A.si
  let Aso := A.so
  let Asu := A.su
  let Ce1 := O.rol Ce 1
  let Da := O.xor Cu Ce1
  let Ci1 := O.rol Ci 1
  let De := O.xor Ca Ci1
  let Co1 := O.rol Co 1
  let Di := O.xor Ce Co1
  let Cu1 := O.rol Cu 1
  let Do := O.xor Ci Cu1
  let Ca1 := O.rol Ca 1
  let Du := O.xor Co Ca1
  let Aba := O.xor Aba Da
  let Bba := Aba
  let Age := O.xor Age De
  let Bbe := O.rol Age 44
  let Aki := O.xor Aki Di
  let Bbi := O.rol Aki 43
  let Eba := O.xor Bba (O.andnot Bbe Bbi)
  let Eba := O.xor Eba (O.const rc)
  let Amo := O.xor Amo Do
  let Bbo := O.rol Amo 21
  let Ebe := O.xor Bbe (O.andnot Bbi Bbo)
  let Asu := O.xor Asu Du
  let Bbu := O.rol Asu 14
  let Ebi := O.xor Bbi (O.andnot Bbo Bbu)
  let Ebo := O.xor Bbo (O.andnot Bbu Bba)
  let Ebu := O.xor Bbu (O.andnot Bba Bbe)
  let Abo := O.xor Abo Do
  let Bga := O.rol Abo 28
  let Agu := O.xor Agu Du
  let Bge := O.rol Agu 20
  let Aka := O.xor Aka Da
  let Bgi := O.rol Aka 3
  let Ega := O.xor Bga (O.andnot Bge Bgi)
  let Ame := O.xor Ame De
  let Bgo := O.rol Ame 45
  let Ege := O.xor Bge (O.andnot Bgi Bgo)
  let Asi := O.xor Asi Di
  let Bgu := O.rol Asi 61
  let Egi := O.xor Bgi (O.andnot Bgo Bgu)
  let Ego := O.xor Bgo (O.andnot Bgu Bga)
  let Egu := O.xor Bgu (O.andnot Bga Bge)
  let Abe := O.xor Abe De
  let Bka := O.rol Abe 1
  let Agi := O.xor Agi Di
  let Bke := O.rol Agi 6
  let Ako := O.xor Ako Do
  let Bki := O.rol Ako 25
  let Eka := O.xor Bka (O.andnot Bke Bki)
  let Amu := O.xor Amu Du
  let Bko := O.rol8 Amu
  let Eke := O.xor Bke (O.andnot Bki Bko)
  let Asa := O.xor Asa Da
  let Bku := O.rol Asa 18
  let Eki := O.xor Bki (O.andnot Bko Bku)
  let Eko := O.xor Bko (O.andnot Bku Bka)
  let Eku := O.xor Bku (O.andnot Bka Bke)
  let Abu := O.xor Abu Du
  let Bma := O.rol Abu 27
  let Aga := O.xor Aga Da
  let Bme := O.rol Aga 36
  let Ake := O.xor Ake De
  let Bmi := O.rol Ake 10
  let Ema := O.xor Bma (O.andnot Bme Bmi)
  let Ami := O.xor Ami Di
  let Bmo := O.rol Ami 15
  let Eme := O.xor Bme (O.andnot Bmi Bmo)
  let Aso := O.xor Aso Do
  let Bmu := O.rol56 Aso
  let Emi := O.xor Bmi (O.andnot Bmo Bmu)
  let Emo := O.xor Bmo (O.andnot Bmu Bma)
  let Emu := O.xor Bmu (O.andnot Bma Bme)
  let Abi := O.xor Abi Di
  let Bsa := O.rol Abi 62
  let Ago := O.xor Ago Do
  let Bse := O.rol Ago 55
  let Aku := O.xor Aku Du
  let Bsi := O.rol Aku 39
  let Esa := O.xor Bsa (O.andnot Bse Bsi)
  let Ama := O.xor Ama Da
  let Bso := O.rol Ama 41
  let Ese := O.xor Bse (O.andnot Bsi Bso)
  let Ase := O.xor Ase De
  let Bsu := O.rol Ase 2
  let Esi := O.xor Bsi (O.andnot Bso Bsu)
  let Eso := O.xor Bso (O.andnot Bsu Bsa)
  let Esu := O.xor Bsu (O.andnot Bsa Bse)
  (⟨Aba, Abe, Abi, Abo, Abu, Aga, Age, Agi, Ago, Agu, Aka, Ake, Aki, Ako, Aku, Ama, Ame, Ami, Amo, Amu, Asa, Ase, Asi, Aso, Asu⟩,
   ⟨Eba, Ebe, Ebi, Ebo, Ebu, Ega, Ege, Egi, Ego, Egu, Eka, Eke, Eki, Eko, Eku, Ema, Eme, Emi, Emo, Emu, Esa, Ese, Esi, Eso, Esu⟩)

/-- `KeccakF1600RoundConstants` (KeccakP-1600-times4-SIMD256.c:691-715). -/
def roundConstants : List Lane := [
  0x0000000000000001, 0x0000000000008082, 0x800000000000808a,
  0x8000000080008000, 0x000000000000808b, 0x0000000080000001,
  0x8000000080008081, 0x8000000000008009, 0x000000000000008a,
  0x0000000000000088, 0x0000000080008009, 0x000000008000000a,
  0x000000008000808b, 0x800000000000008b, 0x8000000000008089,
  0x8000000000008003, 0x8000000000008002, 0x8000000000000080,
  0x000000000000800a, 0x800000008000000a, 0x8000000080008081,
  0x8000000000008080, 0x0000000080000001, 0x8000000080008008]

/-- `rho8` (52). -/
def rho8 : Vec 4 := set4 0x1E1D1C1B1A19181F 0x1615141312111017 0x0E0D0C0B0A09080F 0x0605040302010007

/-- `rho56` (53). -/
def rho56 : Vec 4 := set4 0x181F1E1D1C1B1A19 0x1017161514131211 0x080F0E0D0C0B0A09 0x0007060504030201

/-- The macros of lines 42-58. -/
def ops : Ops (Vec 4) where
  xor := xor
  andnot := andnot
  rol a o := or (slli a o) (srli a (64 - o))
  rol8 a := shuffleEpi8 a rho8
  rol56 a := shuffleEpi8 a rho56
  const := set1

/-- The round macros, with the constants. -/
def rounds : Rounds (Vec 4) where
  prepareTheta := prepareTheta ops
  roundPrep i := roundPrep ops (roundConstants.getD i 0)
  round i := round ops (roundConstants.getD i 0)

/-- `lanes0 ... lanes3`. -/
structure Four where
  (l0 l1 l2 l3 : Vec 4)

/-- `UNINTLEAVE` (63-70). -/
def unintleave (l : Four) : Four :=
  let L01 := unpacklo l.l0 l.l1
  let H01 := unpackhi l.l0 l.l1
  let L23 := unpacklo l.l2 l.l3
  let H23 := unpackhi l.l2 l.l3
  let lanes0 := permute2x128 L01 L23 0x20
  let lanes2 := permute2x128 L01 L23 0x31
  let lanes1 := permute2x128 H01 H23 0x20
  let lanes3 := permute2x128 H01 H23 0x31
  ⟨lanes0, lanes1, lanes2, lanes3⟩

/-- `INTLEAVE` (72-79). -/
def intleave (l : Four) : Four :=
  let L01 := permute2x128 l.l0 l.l2 0x20
  let H01 := permute2x128 l.l1 l.l3 0x20
  let L23 := permute2x128 l.l0 l.l2 0x31
  let H23 := permute2x128 l.l1 l.l3 0x31
  let lanes0 := shufflePd L01 H01 0x00
  let lanes1 := shufflePd L01 H01 0x0F
  let lanes2 := shufflePd L23 H23 0x00
  let lanes3 := shufflePd L23 H23 0x0F
  ⟨lanes0, lanes1, lanes2, lanes3⟩

/-- `LOAD256u(curData0[p])`, ..., `LOAD256u(curData3[p])` (138-141, 214-217, 412-415). -/
def loadPtrs (data : Bytes) (laneOffset p : Nat) : Option Four := do
  let l0 ← loadVec 4 data (8 * p)
  let l1 ← loadVec 4 data (ptr laneOffset 1 + 8 * p)
  let l2 ← loadVec 4 data (ptr laneOffset 2 + 8 * p)
  let l3 ← loadVec 4 data (ptr laneOffset 3 + 8 * p)
  some ⟨l0, l1, l2, l3⟩

/-- `STORE256u(curData0[p], lanes0)`, ..., `STORE256u(curData3[p], lanes3)` (317-320, 420-423). -/
def storePtrs (out : Bytes) (laneOffset p : Nat) (l : Four) : Option Bytes := do
  let out ← storeVec out (8 * p) l.l0
  let out ← storeVec out (ptr laneOffset 1 + 8 * p) l.l1
  let out ← storeVec out (ptr laneOffset 2 + 8 * p) l.l2
  storeVec out (ptr laneOffset 3 + 8 * p) l.l3

/-- `LOAD256(stateAsLanes[p+0])`, ..., `LOAD256(stateAsLanes[p+3])` (312-315, 407-410). -/
def loadState (mem : Bytes) (p : Nat) : Option Four := do
  let l0 ← loadVec 4 mem (32 * p)
  let l1 ← loadVec 4 mem (32 * (p + 1))
  let l2 ← loadVec 4 mem (32 * (p + 2))
  let l3 ← loadVec 4 mem (32 * (p + 3))
  some ⟨l0, l1, l2, l3⟩

/-- `LOAD4_64(curData3[p], curData2[p], curData1[p], curData0[p])` (135, 211, 910). -/
def load4 (data : Bytes) (laneOffset p : Nat) : Option (Vec 4) := do
  let d3 ← loadWord data (ptr laneOffset 3 + 8 * p)
  let d2 ← loadWord data (ptr laneOffset 2 + 8 * p)
  let d1 ← loadWord data (ptr laneOffset 1 + 8 * p)
  let d0 ← loadWord data (8 * p)
  some (set4 d3 d2 d1 d0)

/-- `XOReq256(stateAsLanes[p], v)`. -/
def xorEq (mem : Bytes) (p : Nat) (v : Vec 4) : Option Bytes := do
  let s ← loadVec 4 mem (32 * p)
  storeVec mem (32 * p) (xor s v)

/-- The structure of the four lanes functions (148-168, 224-244, 322-340, 425-445): `f4(i)` for four lanes, `f(i)` for one. -/
def overLanes (f4 f : Nat → Bytes → Option Bytes) (laneCount : Nat) (m : Bytes) : Option Bytes :=
  if laneCount ≥ 16 then do
    let m ← seq f4 [0, 4, 8, 12] m
    if laneCount ≥ 20 then do
      let m ← f4 16 m
      forTo f 20 laneCount m
    else forTo f 16 laneCount m
  else forTo f 0 laneCount m

/-- The macro `Xor_In` (135). -/
def xorIn (data : Bytes) (laneOffset p : Nat) (mem : Bytes) : Option Bytes := do
  let d ← load4 data laneOffset p
  xorEq mem p d

/-- The macro `Xor_In4` (137-146). -/
def xorIn4 (data : Bytes) (laneOffset p : Nat) (mem : Bytes) : Option Bytes := do
  let l ← loadPtrs data laneOffset p
  let l := intleave l
  let mem ← xorEq mem p l.l0
  let mem ← xorEq mem (p + 1) l.l1
  let mem ← xorEq mem (p + 2) l.l2
  xorEq mem (p + 3) l.l3

/-- `KeccakP1600times4_AddLanesAll` (126-169). -/
def addLanesAll (mem data : Bytes) (laneCount laneOffset : Nat) : Option Bytes :=
  overLanes (xorIn4 data laneOffset) (xorIn data laneOffset) laneCount mem

/-- The macro `OverWr` (211). -/
def overWr (data : Bytes) (laneOffset p : Nat) (mem : Bytes) : Option Bytes := do
  let d ← load4 data laneOffset p
  storeVec mem (32 * p) d

/-- The macro `OverWr4` (213-222). -/
def overWr4 (data : Bytes) (laneOffset p : Nat) (mem : Bytes) : Option Bytes := do
  let l ← loadPtrs data laneOffset p
  let l := intleave l
  let mem ← storeVec mem (32 * p) l.l0
  let mem ← storeVec mem (32 * (p + 1)) l.l1
  let mem ← storeVec mem (32 * (p + 2)) l.l2
  storeVec mem (32 * (p + 3)) l.l3

/-- `KeccakP1600times4_OverwriteLanesAll` (202-245). -/
def overwriteLanesAll (mem data : Bytes) (laneCount laneOffset : Nat) : Option Bytes :=
  overLanes (overWr4 data laneOffset) (overWr data laneOffset) laneCount mem

/-- The macro `Extr` (306-309); `stateAsLanes64` is the array of the 64-bit lanes. -/
def extr (mem : Bytes) (laneOffset p : Nat) (out : Bytes) : Option Bytes := do
  let s0 ← loadWord mem (8 * (4 * p))
  let out ← storeWord out (8 * p) s0
  let s1 ← loadWord mem (8 * (4 * p + 1))
  let out ← storeWord out (ptr laneOffset 1 + 8 * p) s1
  let s2 ← loadWord mem (8 * (4 * p + 2))
  let out ← storeWord out (ptr laneOffset 2 + 8 * p) s2
  let s3 ← loadWord mem (8 * (4 * p + 3))
  storeWord out (ptr laneOffset 3 + 8 * p) s3

/-- The macro `Extr4` (311-320). -/
def extr4 (mem : Bytes) (laneOffset p : Nat) (out : Bytes) : Option Bytes := do
  let l ← loadState mem p
  storePtrs out laneOffset p (unintleave l)

/-- `KeccakP1600times4_ExtractLanesAll` (294-342). -/
def extractLanesAll (mem out : Bytes) (laneCount laneOffset : Nat) : Option Bytes :=
  overLanes (extr4 mem laneOffset) (extr mem laneOffset) laneCount out

/-- The macro `ExtrXor` (399-403). -/
def extrXor (mem input : Bytes) (laneOffset p : Nat) (out : Bytes) : Option Bytes := do
  let x0 ← loadWord input (8 * p)
  let s0 ← loadWord mem (8 * (4 * p))
  let out ← storeWord out (8 * p) (x0 ^^^ s0)
  let x1 ← loadWord input (ptr laneOffset 1 + 8 * p)
  let s1 ← loadWord mem (8 * (4 * p + 1))
  let out ← storeWord out (ptr laneOffset 1 + 8 * p) (x1 ^^^ s1)
  let x2 ← loadWord input (ptr laneOffset 2 + 8 * p)
  let s2 ← loadWord mem (8 * (4 * p + 2))
  let out ← storeWord out (ptr laneOffset 2 + 8 * p) (x2 ^^^ s2)
  let x3 ← loadWord input (ptr laneOffset 3 + 8 * p)
  let s3 ← loadWord mem (8 * (4 * p + 3))
  storeWord out (ptr laneOffset 3 + 8 * p) (x3 ^^^ s3)

/-- The macro `ExtrXor4` (405-423). -/
def extrXor4 (mem input : Bytes) (laneOffset p : Nat) (out : Bytes) : Option Bytes := do
  let l ← loadState mem p
  let l := unintleave l
  let x ← loadPtrs input laneOffset p
  storePtrs out laneOffset p ⟨xor l.l0 x.l0, xor l.l1 x.l1, xor l.l2 x.l2, xor l.l3 x.l3⟩

/-- `KeccakP1600times4_ExtractAndAddLanesAll` (383-447). -/
def extractAndAddLanesAll (mem input out : Bytes) (laneCount laneOffset : Nat) : Option Bytes :=
  overLanes (extrXor4 mem input laneOffset) (extrXor mem input laneOffset) laneCount out

/-- What the uninitialised local variables contain when a function is entered. -/
structure Junk where
  E : V (Vec 4)
  c : C5 (Vec 4)

/-- `KeccakP1600times4_PermuteAll_24rounds`, `_12rounds`, `_6rounds`, `_4rounds` (805-855). -/
def permuteAll (unr : Unrolling) (J : Junk) (p : Perm) (mem : Bytes) : Option Bytes :=
  match p with
  | .all => permute (rounds24 rounds unr) J.E J.c mem
  | .r12 => permute (rounds12 rounds unr) J.E J.c mem
  | .r6 => permute (rounds6 rounds unr) J.E J.c mem
  | .r4 => permute (rounds4 rounds unr) J.E J.c mem

/-- The macro `XOR_In` on a variable (909-910, 1014-1015, 1061-1062): the new value. -/
def xorVar (data : Bytes) (laneOffset : Nat) (x : Vec 4) (p : Nat) : Option (Vec 4) := do
  let d ← load4 data laneOffset p
  some (xor x d)

/-- The 17 lines `XOR_In( Aba, 0 )` ... `XOR_In( Ame, 16 )` (911-927, 1016-1032, 1063-1079). -/
def xorVars17 (data : Bytes) (laneOffset : Nat) (A : V (Vec 4)) : Option (V (Vec 4)) := do
  let ba ← xorVar data laneOffset A.ba 0
  let be ← xorVar data laneOffset A.be 1
  let bi ← xorVar data laneOffset A.bi 2
  let bo ← xorVar data laneOffset A.bo 3
  let bu ← xorVar data laneOffset A.bu 4
  let ga ← xorVar data laneOffset A.ga 5
  let ge ← xorVar data laneOffset A.ge 6
  let gi ← xorVar data laneOffset A.gi 7
  let go ← xorVar data laneOffset A.go 8
  let gu ← xorVar data laneOffset A.gu 9
  let ka ← xorVar data laneOffset A.ka 10
  let ke ← xorVar data laneOffset A.ke 11
  let ki ← xorVar data laneOffset A.ki 12
  let ko ← xorVar data laneOffset A.ko 13
  let ku ← xorVar data laneOffset A.ku 14
  let ma ← xorVar data laneOffset A.ma 15
  let me ← xorVar data laneOffset A.me 16
  some { A with ba := ba, be := be, bi := bi, bo := bo, bu := bu, ga := ga, ge := ge, gi := gi, go := go, gu := gu, ka := ka, ke := ke, ki := ki, ko := ko, ku := ku, ma := ma, me := me }

/-- The four lines `XOR_In( Ami, 17 )` ... `XOR_In( Asa, 20 )` (928-931, 1033-1036). -/
def xorVars21 (data : Bytes) (laneOffset : Nat) (A : V (Vec 4)) : Option (V (Vec 4)) := do
  let mi ← xorVar data laneOffset A.mi 17
  let mo ← xorVar data laneOffset A.mo 18
  let mu ← xorVar data laneOffset A.mu 19
  let sa ← xorVar data laneOffset A.sa 20
  some { A with mi := mi, mo := mo, mu := mu, sa := sa }

/-- The bodies of the loops on local variables of `FastLoop_Absorb` for 21 lanes (908-941, 1013-1046); `rounds` is `rounds24` or `rounds12`. -/
def bodyVars21 (rounds : St (Vec 4) → St (Vec 4)) (laneOffset : Nat) (data : Bytes) (s : St (Vec 4)) : Option (St (Vec 4)) := do
  let A ← xorVars17 data laneOffset s.A
  let A ← xorVars21 data laneOffset A
  some (rounds { s with A := A })

/-- The body of the loop on local variables of `KeccakP1600times4_12rounds_FastLoop_Absorb` for 17 lanes (1060-1086). -/
def bodyVars17 (rounds : St (Vec 4) → St (Vec 4)) (laneOffset : Nat) (data : Bytes) (s : St (Vec 4)) : Option (St (Vec 4)) := do
  let A ← xorVars17 data laneOffset s.A
  some (rounds { s with A := A })

/-- The body of the other loops (950-951, 1097-1098). -/
def body (unr : Unrolling) (J : Junk) (p : Perm) (laneCount laneOffset : Nat) (data mem : Bytes) : Option Bytes := do
  let mem ← addLanesAll mem data laneCount laneOffset
  permuteAll unr J p mem

/-- `copyFromState`, the loop on local variables, `copyToState` (906-944, 1011-1049, 1058-1091).  The pointers are to 64-bit words and move by
`laneOffsetSerial` words. -/
def fastVars (bodyVars : Nat → Bytes → St (Vec 4) → Option (St (Vec 4))) (J : Junk) (fuel : Nat) (mem : Bytes)
    (laneCount laneOffsetParallel laneOffsetSerial : Nat) (data : Bytes) (dataByteLen : Nat) : Option (Bytes × Nat) := do
  let A ← copyFromState 4 mem
  let (s, total) ← absorbLoop ((laneOffsetParallel * 3 + laneCount) * 8 % 2 ^ 32) (8 * laneOffsetSerial) (laneOffsetSerial * 8 % 2 ^ 32)
    (bodyVars laneOffsetParallel) fuel data dataByteLen ⟨A, J.E, J.c⟩
  let mem ← copyToState mem s.A
  some (mem, total)

/-- The loop on the state (946-956, 1093-1103). -/
def fastState (unr : Unrolling) (J : Junk) (p : Perm) (fuel : Nat) (mem : Bytes)
    (laneCount laneOffsetParallel laneOffsetSerial : Nat) (data : Bytes) (dataByteLen : Nat) : Option (Bytes × Nat) :=
  absorbLoop ((laneOffsetParallel * 3 + laneCount) * 8 % 2 ^ 32) (laneOffsetSerial * 8 % 2 ^ 32) (laneOffsetSerial * 8 % 2 ^ 32)
    (body unr J p laneCount laneOffsetParallel) fuel data dataByteLen mem

/-- `KeccakF1600times4_FastLoop_Absorb` (857-957). -/
def fastLoopAbsorb (unr : Unrolling) (J : Junk) (fuel : Nat) (mem : Bytes)
    (laneCount laneOffsetParallel laneOffsetSerial : Nat) (data : Bytes) (dataByteLen : Nat) : Option (Bytes × Nat) :=
  if laneCount = 21 then
    fastVars (bodyVars21 (rounds24 rounds unr)) J fuel mem laneCount laneOffsetParallel laneOffsetSerial data dataByteLen
  else fastState unr J .all fuel mem laneCount laneOffsetParallel laneOffsetSerial data dataByteLen

/-- `KeccakP1600times4_12rounds_FastLoop_Absorb` (959-1104). -/
def fastLoopAbsorb12 (unr : Unrolling) (J : Junk) (fuel : Nat) (mem : Bytes)
    (laneCount laneOffsetParallel laneOffsetSerial : Nat) (data : Bytes) (dataByteLen : Nat) : Option (Bytes × Nat) :=
  if laneCount = 21 then
    fastVars (bodyVars21 (rounds12 rounds unr)) J fuel mem laneCount laneOffsetParallel laneOffsetSerial data dataByteLen
  else if laneCount = 17 then
    fastVars (bodyVars17 (rounds12 rounds unr)) J fuel mem laneCount laneOffsetParallel laneOffsetSerial data dataByteLen
  else fastState unr J .r12 fuel mem laneCount laneOffsetParallel laneOffsetSerial data dataByteLen

/-- The implementation (AVX2/KeccakP-1600-times4-SnP.h:27-53). -/
def impl (unr : Unrolling) (J : Junk) : Par where
  par := 4
  size := 800
  align := 32
  lane := 8
  initAll := Interleaved.initAll
  addByte := Interleaved.addByte 4
  addBytes := Interleaved.addBytes 4
  addLanesAll := addLanesAll
  overwriteBytes := Interleaved.overwriteBytes 4
  overwriteLanesAll := overwriteLanesAll
  overwriteWithZeroes := Interleaved.overwriteWithZeroes 4
  permuteAll := permuteAll unr J
  extractBytes := Interleaved.extractBytes 4
  extractLanesAll := extractLanesAll
  extractAndAddBytes := Interleaved.extractAndAddBytes 4
  extractAndAddLanesAll := extractAndAddLanesAll

end Times4
