import Verif.Model.KeccakP1600

/-!
# Keccak-p[1600]: the compact and the optimised 64-bit implementations

Models `lib/low/KeccakP-1600/compact/KeccakP-1600-compact64.c` and
`lib/low/KeccakP-1600/plain-64bits/KeccakP-1600-opt64.c` with the macros it includes,
`lib/low/KeccakP-1600/common/KeccakP-1600-64.macros` and `KeccakP-1600-unrolling.macros`, for all values of
the configuration macros `KeccakP1600_useLaneComplementing`, `KeccakP1600_fullUnrolling` and
`KeccakP1600_unrolling`.  The option `KeccakP1600_useSHLD` only changes the way `ROL64` is computed (inline
assembly) and is not modelled.  The state here is the array of 25 lanes; the byte access functions are in
`Model/Relaned.lean`.
-/

namespace KeccakP1600

namespace Compact

/-- `KeccakP1600_RotationConstants` (KeccakP-1600-compact64.c:54-57); the 25th entry is implicitly 0. -/
def rotationConstants : List Nat :=
  [1, 3, 6, 10, 15, 21, 28, 36, 45, 55, 2, 14, 27, 41, 56, 8, 25, 43, 62, 18, 39, 61, 20, 44, 0]

/-- `KeccakP1600_PiLane` (KeccakP-1600-compact64.c:59-62); the 25th entry is implicitly 0. -/
def piLane : List (Fin 25) :=
  [10, 7, 11, 17, 18, 3, 5, 16, 8, 21, 24, 4, 15, 23, 19, 13, 12, 2, 20, 14, 22, 9, 6, 1, 0]

/-- `MOD5` (KeccakP-1600-compact64.c:64-72). -/
def mod5 (v : Nat) : Nat := [0, 1, 2, 3, 4, 0, 1, 2, 3, 4].getD v 0

/-- `ROL64` (KeccakP-1600-compact64.c:49). -/
def rol64 (a : Lane) (offset : Nat) : Lane := (a <<< offset) ^^^ (a >>> (64 - offset))

/-- Array index: the code only uses indices below 25. -/
def ix (i : Nat) : Fin 25 := Fin.ofNat 25 i

/-- `KeccakF1600_GetNextRoundConstant` (KeccakP-1600-compact64.c:77-100): the constant and the new LFSR state;
`i = 2^j`.  `tSmallUInt` is taken to be 8 bits wide; bits above the eighth do not influence the result. -/
def getNextRoundConstant (LFSR : Byte) : Lane × Byte :=
  loopFrom (fun j st =>
    let doXOR := st.2 &&& 1
    let tempLFSR := if (st.2 &&& 0x80) ≠ 0 then (st.2 <<< 1) ^^^ 0x71 else st.2 <<< 1
    (if doXOR ≠ 0 then st.1 ^^^ ((1 : Lane) <<< (2 ^ j - 1)) else st.1, tempLFSR)) 0 7 (0, LFSR)

/-- Theta (KeccakP-1600-compact64.c:261-273). -/
def theta (A : Lanes) : Lanes :=
  let BC := fun x => A (ix x) ^^^ A (ix (5 + x)) ^^^ A (ix (10 + x)) ^^^ A (ix (15 + x)) ^^^ A (ix (20 + x))
  loopFrom (fun x A =>
    let temp := BC (mod5 (x + 4)) ^^^ rol64 (BC (mod5 (x + 1))) 1
    loopFrom (fun y A => put A (ix (5 * y + x)) (A (ix (5 * y + x)) ^^^ temp)) 0 5 A) 0 5 A

/-- Rho and pi (KeccakP-1600-compact64.c:275-282): the state and `temp`. -/
def rhoPi (A : Lanes) : Lanes :=
  (loopFrom (fun x st =>
    let BC0 := st.1 (piLane.getD x 0)
    (put st.1 (piLane.getD x 0) (rol64 st.2 (rotationConstants.getD x 0)), BC0)) 0 24 (A, A 1)).1

/-- Chi (KeccakP-1600-compact64.c:284-303); the loop counter of the C code is `5 * y`. -/
def chi (A : Lanes) : Lanes :=
  loopFrom (fun y A =>
    let BC := fun x => A (ix (5 * y + x))
    loopFrom (fun x A => put A (ix (5 * y + x)) (BC x ^^^ (~~~ BC (mod5 (x + 1)) &&& BC (mod5 (x + 2))))) 0 5 A) 0 5 A

/-- The `do ... while( --round != 0 )` loop of `KeccakP1600_Permute_NroundsLFSR`
(KeccakP-1600-compact64.c:259-308); `none` if the fuel does not suffice. -/
def loop : Nat → Lanes → Byte → Byte → Option Lanes
  | 0, _, _, _ => none
  | fuel + 1, A, LFSR, round =>
    let A := chi (rhoPi (theta A))
    let c := getNextRoundConstant LFSR
    let A := put A 0 (A 0 ^^^ c.1)
    if round - 1 ≠ 0 then loop fuel A c.2 (round - 1) else some A

/-- `KeccakP1600_Permute_NroundsLFSR` (KeccakP-1600-compact64.c:248-309).  The counter is an `uint_fast8_t`,
taken to be 8 bits wide; 256 iterations are always enough. -/
def permuteNroundsLFSR (A : Lanes) (rounds : Byte) (LFSR : Byte) : Option Lanes := loop 256 A LFSR rounds

/-- The loop of `KeccakP1600_Permute_Nrounds` that skips round constants (KeccakP-1600-compact64.c:319-320). -/
def skip : Nat → Byte → Byte
  | 0, LFSR => LFSR
  | n + 1, LFSR => skip n (getNextRoundConstant LFSR).2

/-- `KeccakP1600_Permute_Nrounds` (KeccakP-1600-compact64.c:313-322); `nr` is a `uint8_t`. -/
def permuteNrounds (A : Lanes) (nrounds : Nat) : Option Lanes :=
  permuteNroundsLFSR A (BitVec.ofNat 8 nrounds) (skip ((2 ^ 32 + 24 - nrounds) % 2 ^ 8) 0x01)

/-- `KeccakP1600_Permute_12rounds` (KeccakP-1600-compact64.c:326-329). -/
def permute12 (A : Lanes) : Option Lanes := permuteNroundsLFSR A 12 0xD5

/-- `KeccakP1600_Permute_24rounds` (KeccakP-1600-compact64.c:333-336). -/
def permute24 (A : Lanes) : Option Lanes := permuteNroundsLFSR A 24 0x01

end Compact

namespace Opt64

/-- The local variables `Aba ... Asu` (or `Eba ... Esu`) of `declareABCDE` (KeccakP-1600-64.macros:17-34). -/
structure V where
  (ba be bi bo bu : Lane)
  (ga ge gi go gu : Lane)
  (ka ke ki ko ku : Lane)
  (ma me mi mo mu : Lane)
  (sa se si so su : Lane)

/-- The local variables `Ca ... Cu` (KeccakP-1600-64.macros:28). -/
structure C5 where
  (a e i o u : Lane)

/-- `ROL64` (KeccakP-1600-opt64.c:45). -/
def rol64 (a : Lane) (offset : Nat) : Lane := (a <<< offset) ^^^ (a >>> (64 - offset))

/-- `prepareTheta` (KeccakP-1600-64.macros:36-41). -/
def prepareTheta (A : V) : C5 :=
  ⟨A.ba ^^^ A.ga ^^^ A.ka ^^^ A.ma ^^^ A.sa, A.be ^^^ A.ge ^^^ A.ke ^^^ A.me ^^^ A.se,
   A.bi ^^^ A.gi ^^^ A.ki ^^^ A.mi ^^^ A.si, A.bo ^^^ A.go ^^^ A.ko ^^^ A.mo ^^^ A.so,
   A.bu ^^^ A.gu ^^^ A.ku ^^^ A.mu ^^^ A.su⟩

/-- `FullUnrolling`, or the value of `Unrolling` (KeccakP-1600-unrolling.macros:17-292). -/
inductive Unrolling where
  | full | u12 | u6 | u4 | u3 | u2 | u1

/-- `thetaRhoPiChiIotaPrepareTheta(i, A, E)`, lane complementing version (KeccakP-1600-64.macros:46-159); `rc` is
`KeccakF1600RoundConstants[i]`.  Returns the new `A` variables, the `E` variables and the `C` variables. -/
def lcRoundPrep (rc : Lane) (A : V) (c : C5) : V × V × C5 :=
  let Ca := c.a
  let Ce := c.e
  let Ci := c.i
  let Co := c.o
  let Cu := c.u
  let Aba := A.ba
  let Abe := A.be
  let Abi := A.bi
  let Abo := A.bo
  let Abu := A.bu
  let Aga := A.ga
  let Age := A.ge
  let Agi := A.gi
  let Ago := A.go
  let Agu := A.gu
  let Aka := A.ka
  let Ake := A.ke
  let Aki := A.ki
  let Ako := A.ko
  let Aku := A.ku
  let Ama := A.ma
  let Ame := A.me
  let Ami := A.mi
  let Amo := A.mo
  let Amu := A.mu
  let Asa := A.sa
  let Ase := A.se
  let Asi := A.si
  let Aso := A.so
  let Asu := A.su
  let Da := Cu ^^^ (rol64 Ce 1)
  let De := Ca ^^^ (rol64 Ci 1)
  let Di := Ce ^^^ (rol64 Co 1)
  let Do := Ci ^^^ (rol64 Cu 1)
  let Du := Co ^^^ (rol64 Ca 1)
  let Aba := Aba ^^^ Da
  let Bba := Aba
  let Age := Age ^^^ De
  let Bbe := (rol64 Age 44)
  let Aki := Aki ^^^ Di
  let Bbi := (rol64 Aki 43)
  let Amo := Amo ^^^ Do
  let Bbo := (rol64 Amo 21)
  let Asu := Asu ^^^ Du
  let Bbu := (rol64 Asu 14)
  let Eba := Bba ^^^ (Bbe ||| Bbi)
  let Eba := Eba ^^^ rc
  let Ca := Eba
  let Ebe := Bbe ^^^ ((~~~Bbi) ||| Bbo)
  let Ce := Ebe
  let Ebi := Bbi ^^^ (Bbo &&& Bbu)
  let Ci := Ebi
  let Ebo := Bbo ^^^ (Bbu ||| Bba)
  let Co := Ebo
  let Ebu := Bbu ^^^ (Bba &&& Bbe)
  let Cu := Ebu
  let Abo := Abo ^^^ Do
  let Bga := (rol64 Abo 28)
  let Agu := Agu ^^^ Du
  let Bge := (rol64 Agu 20)
  let Aka := Aka ^^^ Da
  let Bgi := (rol64 Aka 3)
  let Ame := Ame ^^^ De
  let Bgo := (rol64 Ame 45)
  let Asi := Asi ^^^ Di
  let Bgu := (rol64 Asi 61)
  let Ega := Bga ^^^ (Bge ||| Bgi)
  let Ca := Ca ^^^ Ega
  let Ege := Bge ^^^ (Bgi &&& Bgo)
  let Ce := Ce ^^^ Ege
  let Egi := Bgi ^^^ (Bgo ||| (~~~Bgu))
  let Ci := Ci ^^^ Egi
  let Ego := Bgo ^^^ (Bgu ||| Bga)
  let Co := Co ^^^ Ego
  let Egu := Bgu ^^^ (Bga &&& Bge)
  let Cu := Cu ^^^ Egu
  let Abe := Abe ^^^ De
  let Bka := (rol64 Abe 1)
  let Agi := Agi ^^^ Di
  let Bke := (rol64 Agi 6)
  let Ako := Ako ^^^ Do
  let Bki := (rol64 Ako 25)
  let Amu := Amu ^^^ Du
  let Bko := (rol64 Amu 8)
  let Asa := Asa ^^^ Da
  let Bku := (rol64 Asa 18)
  let Eka := Bka ^^^ (Bke ||| Bki)
  let Ca := Ca ^^^ Eka
  let Eke := Bke ^^^ (Bki &&& Bko)
  let Ce := Ce ^^^ Eke
  let Eki := Bki ^^^ ((~~~Bko) &&& Bku)
  let Ci := Ci ^^^ Eki
  let Eko := (~~~Bko) ^^^ (Bku ||| Bka)
  let Co := Co ^^^ Eko
  let Eku := Bku ^^^ (Bka &&& Bke)
  let Cu := Cu ^^^ Eku
  let Abu := Abu ^^^ Du
  let Bma := (rol64 Abu 27)
  let Aga := Aga ^^^ Da
  let Bme := (rol64 Aga 36)
  let Ake := Ake ^^^ De
  let Bmi := (rol64 Ake 10)
  let Ami := Ami ^^^ Di
  let Bmo := (rol64 Ami 15)
  let Aso := Aso ^^^ Do
  let Bmu := (rol64 Aso 56)
  let Ema := Bma ^^^ (Bme &&& Bmi)
  let Ca := Ca ^^^ Ema
  let Eme := Bme ^^^ (Bmi ||| Bmo)
  let Ce := Ce ^^^ Eme
  let Emi := Bmi ^^^ ((~~~Bmo) ||| Bmu)
  let Ci := Ci ^^^ Emi
  let Emo := (~~~Bmo) ^^^ (Bmu &&& Bma)
  let Co := Co ^^^ Emo
  let Emu := Bmu ^^^ (Bma ||| Bme)
  let Cu := Cu ^^^ Emu
  let Abi := Abi ^^^ Di
  let Bsa := (rol64 Abi 62)
  let Ago := Ago ^^^ Do
  let Bse := (rol64 Ago 55)
  let Aku := Aku ^^^ Du
  let Bsi := (rol64 Aku 39)
  let Ama := Ama ^^^ Da
  let Bso := (rol64 Ama 41)
  let Ase := Ase ^^^ De
  let Bsu := (rol64 Ase 2)
  let Esa := Bsa ^^^ ((~~~Bse) &&& Bsi)
  let Ca := Ca ^^^ Esa
  let Ese := (~~~Bse) ^^^ (Bsi ||| Bso)
  let Ce := Ce ^^^ Ese
  let Esi := Bsi ^^^ (Bso &&& Bsu)
  let Ci := Ci ^^^ Esi
  let Eso := Bso ^^^ (Bsu ||| Bsa)
  let Co := Co ^^^ Eso
  let Esu := Bsu ^^^ (Bsa &&& Bse)
  let Cu := Cu ^^^ Esu
  (⟨Aba, Abe, Abi, Abo, Abu, Aga, Age, Agi, Ago, Agu, Aka, Ake, Aki, Ako, Aku, Ama, Ame, Ami, Amo, Amu, Asa, Ase, Asi, Aso, Asu⟩,
   ⟨Eba, Ebe, Ebi, Ebo, Ebu, Ega, Ege, Egi, Ego, Egu, Eka, Eke, Eki, Eko, Eku, Ema, Eme, Emi, Emo, Emu, Esa, Ese, Esi, Eso, Esu⟩, ⟨Ca, Ce, Ci, Co, Cu⟩)

/-- `thetaRhoPiChiIota(i, A, E)`, lane complementing version (KeccakP-1600-64.macros:162-250); `rc` is
`KeccakF1600RoundConstants[i]`.  Returns the new `A` variables, the `E` variables. -/
def lcRound (rc : Lane) (A : V) (c : C5) : V × V :=
  let Ca := c.a
  let Ce := c.e
  let Ci := c.i
  let Co := c.o
  let Cu := c.u
  let Aba := A.ba
  let Abe := A.be
  let Abi := A.bi
  let Abo := A.bo
  let Abu := A.bu
  let Aga := A.ga
  let Age := A.ge
  let Agi := A.gi
  let Ago := A.go
  let Agu := A.gu
  let Aka := A.ka
  let Ake := A.ke
  let Aki := A.ki
  let Ako := A.ko
  let Aku := A.ku
  let Ama := A.ma
  let Ame := A.me
  let Ami := A.mi
  let Amo := A.mo
  let Amu := A.mu
  let Asa := A.sa
  let Ase := A.se
  let Asi := A.si
  let Aso := A.so
  let Asu := A.su
  let Da := Cu ^^^ (rol64 Ce 1)
  let De := Ca ^^^ (rol64 Ci 1)
  let Di := Ce ^^^ (rol64 Co 1)
  let Do := Ci ^^^ (rol64 Cu 1)
  let Du := Co ^^^ (rol64 Ca 1)
  let Aba := Aba ^^^ Da
  let Bba := Aba
  let Age := Age ^^^ De
  let Bbe := (rol64 Age 44)
  let Aki := Aki ^^^ Di
  let Bbi := (rol64 Aki 43)
  let Amo := Amo ^^^ Do
  let Bbo := (rol64 Amo 21)
  let Asu := Asu ^^^ Du
  let Bbu := (rol64 Asu 14)
  let Eba := Bba ^^^ (Bbe ||| Bbi)
  let Eba := Eba ^^^ rc
  let Ebe := Bbe ^^^ ((~~~Bbi) ||| Bbo)
  let Ebi := Bbi ^^^ (Bbo &&& Bbu)
  let Ebo := Bbo ^^^ (Bbu ||| Bba)
  let Ebu := Bbu ^^^ (Bba &&& Bbe)
  let Abo := Abo ^^^ Do
  let Bga := (rol64 Abo 28)
  let Agu := Agu ^^^ Du
  let Bge := (rol64 Agu 20)
  let Aka := Aka ^^^ Da
  let Bgi := (rol64 Aka 3)
  let Ame := Ame ^^^ De
  let Bgo := (rol64 Ame 45)
  let Asi := Asi ^^^ Di
  let Bgu := (rol64 Asi 61)
  let Ega := Bga ^^^ (Bge ||| Bgi)
  let Ege := Bge ^^^ (Bgi &&& Bgo)
  let Egi := Bgi ^^^ (Bgo ||| (~~~Bgu))
  let Ego := Bgo ^^^ (Bgu ||| Bga)
  let Egu := Bgu ^^^ (Bga &&& Bge)
  let Abe := Abe ^^^ De
  let Bka := (rol64 Abe 1)
  let Agi := Agi ^^^ Di
  let Bke := (rol64 Agi 6)
  let Ako := Ako ^^^ Do
  let Bki := (rol64 Ako 25)
  let Amu := Amu ^^^ Du
  let Bko := (rol64 Amu 8)
  let Asa := Asa ^^^ Da
  let Bku := (rol64 Asa 18)
  let Eka := Bka ^^^ (Bke ||| Bki)
  let Eke := Bke ^^^ (Bki &&& Bko)
  let Eki := Bki ^^^ ((~~~Bko) &&& Bku)
  let Eko := (~~~Bko) ^^^ (Bku ||| Bka)
  let Eku := Bku ^^^ (Bka &&& Bke)
  let Abu := Abu ^^^ Du
  let Bma := (rol64 Abu 27)
  let Aga := Aga ^^^ Da
  let Bme := (rol64 Aga 36)
  let Ake := Ake ^^^ De
  let Bmi := (rol64 Ake 10)
  let Ami := Ami ^^^ Di
  let Bmo := (rol64 Ami 15)
  let Aso := Aso ^^^ Do
  let Bmu := (rol64 Aso 56)
  let Ema := Bma ^^^ (Bme &&& Bmi)
  let Eme := Bme ^^^ (Bmi ||| Bmo)
  let Emi := Bmi ^^^ ((~~~Bmo) ||| Bmu)
  let Emo := (~~~Bmo) ^^^ (Bmu &&& Bma)
  let Emu := Bmu ^^^ (Bma ||| Bme)
  let Abi := Abi ^^^ Di
  let Bsa := (rol64 Abi 62)
  let Ago := Ago ^^^ Do
  let Bse := (rol64 Ago 55)
  let Aku := Aku ^^^ Du
  let Bsi := (rol64 Aku 39)
  let Ama := Ama ^^^ Da
  let Bso := (rol64 Ama 41)
  let Ase := Ase ^^^ De
  let Bsu := (rol64 Ase 2)
  let Esa := Bsa ^^^ ((~~~Bse) &&& Bsi)
  let Ese := (~~~Bse) ^^^ (Bsi ||| Bso)
  let Esi := Bsi ^^^ (Bso &&& Bsu)
  let Eso := Bso ^^^ (Bsu ||| Bsa)
  let Esu := Bsu ^^^ (Bsa &&& Bse)
  (⟨Aba, Abe, Abi, Abo, Abu, Aga, Age, Agi, Ago, Agu, Aka, Ake, Aki, Ako, Aku, Ama, Ame, Ami, Amo, Amu, Asa, Ase, Asi, Aso, Asu⟩,
   ⟨Eba, Ebe, Ebi, Ebo, Ebu, Ega, Ege, Egi, Ego, Egu, Eka, Eke, Eki, Eko, Eku, Ema, Eme, Emi, Emo, Emu, Esa, Ese, Esi, Eso, Esu⟩)

/-- `thetaRhoPiChiIotaPrepareTheta(i, A, E)`, plain version (KeccakP-1600-64.macros:254-367); `rc` is
`KeccakF1600RoundConstants[i]`.  Returns the new `A` variables, the `E` variables and the `C` variables. -/
def roundPrep (rc : Lane) (A : V) (c : C5) : V × V × C5 :=
  let Ca := c.a
  let Ce := c.e
  let Ci := c.i
  let Co := c.o
  let Cu := c.u
  let Aba := A.ba
  let Abe := A.be
  let Abi := A.bi
  let Abo := A.bo
  let Abu := A.bu
  let Aga := A.ga
  let Age := A.ge
  let Agi := A.gi
  let Ago := A.go
  let Agu := A.gu
  let Aka := A.ka
  let Ake := A.ke
  let Aki := A.ki
  let Ako := A.ko
  let Aku := A.ku
  let Ama := A.ma
  let Ame := A.me
  let Ami := A.mi
  let Amo := A.mo
  let Amu := A.mu
  let Asa := A.sa
  let Ase := A.se
  let Asi := A.si
  let Aso := A.so
  let Asu := A.su
  let Da := Cu ^^^ (rol64 Ce 1)
  let De := Ca ^^^ (rol64 Ci 1)
  let Di := Ce ^^^ (rol64 Co 1)
  let Do := Ci ^^^ (rol64 Cu 1)
  let Du := Co ^^^ (rol64 Ca 1)
  let Aba := Aba ^^^ Da
  let Bba := Aba
  let Age := Age ^^^ De
  let Bbe := (rol64 Age 44)
  let Aki := Aki ^^^ Di
  let Bbi := (rol64 Aki 43)
  let Amo := Amo ^^^ Do
  let Bbo := (rol64 Amo 21)
  let Asu := Asu ^^^ Du
  let Bbu := (rol64 Asu 14)
  let Eba := Bba ^^^ ((~~~Bbe) &&& Bbi)
  let Eba := Eba ^^^ rc
  let Ca := Eba
  let Ebe := Bbe ^^^ ((~~~Bbi) &&& Bbo)
  let Ce := Ebe
  let Ebi := Bbi ^^^ ((~~~Bbo) &&& Bbu)
  let Ci := Ebi
  let Ebo := Bbo ^^^ ((~~~Bbu) &&& Bba)
  let Co := Ebo
  let Ebu := Bbu ^^^ ((~~~Bba) &&& Bbe)
  let Cu := Ebu
  let Abo := Abo ^^^ Do
  let Bga := (rol64 Abo 28)
  let Agu := Agu ^^^ Du
  let Bge := (rol64 Agu 20)
  let Aka := Aka ^^^ Da
  let Bgi := (rol64 Aka 3)
  let Ame := Ame ^^^ De
  let Bgo := (rol64 Ame 45)
  let Asi := Asi ^^^ Di
  let Bgu := (rol64 Asi 61)
  let Ega := Bga ^^^ ((~~~Bge) &&& Bgi)
  let Ca := Ca ^^^ Ega
  let Ege := Bge ^^^ ((~~~Bgi) &&& Bgo)
  let Ce := Ce ^^^ Ege
  let Egi := Bgi ^^^ ((~~~Bgo) &&& Bgu)
  let Ci := Ci ^^^ Egi
  let Ego := Bgo ^^^ ((~~~Bgu) &&& Bga)
  let Co := Co ^^^ Ego
  let Egu := Bgu ^^^ ((~~~Bga) &&& Bge)
  let Cu := Cu ^^^ Egu
  let Abe := Abe ^^^ De
  let Bka := (rol64 Abe 1)
  let Agi := Agi ^^^ Di
  let Bke := (rol64 Agi 6)
  let Ako := Ako ^^^ Do
  let Bki := (rol64 Ako 25)
  let Amu := Amu ^^^ Du
  let Bko := (rol64 Amu 8)
  let Asa := Asa ^^^ Da
  let Bku := (rol64 Asa 18)
  let Eka := Bka ^^^ ((~~~Bke) &&& Bki)
  let Ca := Ca ^^^ Eka
  let Eke := Bke ^^^ ((~~~Bki) &&& Bko)
  let Ce := Ce ^^^ Eke
  let Eki := Bki ^^^ ((~~~Bko) &&& Bku)
  let Ci := Ci ^^^ Eki
  let Eko := Bko ^^^ ((~~~Bku) &&& Bka)
  let Co := Co ^^^ Eko
  let Eku := Bku ^^^ ((~~~Bka) &&& Bke)
  let Cu := Cu ^^^ Eku
  let Abu := Abu ^^^ Du
  let Bma := (rol64 Abu 27)
  let Aga := Aga ^^^ Da
  let Bme := (rol64 Aga 36)
  let Ake := Ake ^^^ De
  let Bmi := (rol64 Ake 10)
  let Ami := Ami ^^^ Di
  let Bmo := (rol64 Ami 15)
  let Aso := Aso ^^^ Do
  let Bmu := (rol64 Aso 56)
  let Ema := Bma ^^^ ((~~~Bme) &&& Bmi)
  let Ca := Ca ^^^ Ema
  let Eme := Bme ^^^ ((~~~Bmi) &&& Bmo)
  let Ce := Ce ^^^ Eme
  let Emi := Bmi ^^^ ((~~~Bmo) &&& Bmu)
  let Ci := Ci ^^^ Emi
  let Emo := Bmo ^^^ ((~~~Bmu) &&& Bma)
  let Co := Co ^^^ Emo
  let Emu := Bmu ^^^ ((~~~Bma) &&& Bme)
  let Cu := Cu ^^^ Emu
  let Abi := Abi ^^^ Di
  let Bsa := (rol64 Abi 62)
  let Ago := Ago ^^^ Do
  let Bse := (rol64 Ago 55)
  let Aku := Aku ^^^ Du
  let Bsi := (rol64 Aku 39)
  let Ama := Ama ^^^ Da
  let Bso := (rol64 Ama 41)
  let Ase := Ase ^^^ De
  let Bsu := (rol64 Ase 2)
  let Esa := Bsa ^^^ ((~~~Bse) &&& Bsi)
  let Ca := Ca ^^^ Esa
  let Ese := Bse ^^^ ((~~~Bsi) &&& Bso)
  let Ce := Ce ^^^ Ese
  let Esi := Bsi ^^^ ((~~~Bso) &&& Bsu)
  let Ci := Ci ^^^ Esi
  let Eso := Bso ^^^ ((~~~Bsu) &&& Bsa)
  let Co := Co ^^^ Eso
  let Esu := Bsu ^^^ ((~~~Bsa) &&& Bse)
  let Cu := Cu ^^^ Esu
  (⟨Aba, Abe, Abi, Abo, Abu, Aga, Age, Agi, Ago, Agu, Aka, Ake, Aki, Ako, Aku, Ama, Ame, Ami, Amo, Amu, Asa, Ase, Asi, Aso, Asu⟩,
   ⟨Eba, Ebe, Ebi, Ebo, Ebu, Ega, Ege, Egi, Ego, Egu, Eka, Eke, Eki, Eko, Eku, Ema, Eme, Emi, Emo, Emu, Esa, Ese, Esi, Eso, Esu⟩, ⟨Ca, Ce, Ci, Co, Cu⟩)

/-- `thetaRhoPiChiIota(i, A, E)`, plain version (KeccakP-1600-64.macros:370-458); `rc` is
`KeccakF1600RoundConstants[i]`.  Returns the new `A` variables, the `E` variables. -/
def round (rc : Lane) (A : V) (c : C5) : V × V :=
  let Ca := c.a
  let Ce := c.e
  let Ci := c.i
  let Co := c.o
  let Cu := c.u
  let Aba := A.ba
  let Abe := A.be
  let Abi := A.bi
  let Abo := A.bo
  let Abu := A.bu
  let Aga := A.ga
  let Age := A.ge
  let Agi := A.gi
  let Ago := A.go
  let Agu := A.gu
  let Aka := A.ka
  let Ake := A.ke
  let Aki := A.ki
  let Ako := A.ko
  let Aku := A.ku
  let Ama := A.ma
  let Ame := A.me
  let Ami := A.mi
  let Amo := A.mo
  let Amu := A.mu
  let Asa := A.sa
  let Ase := A.se
  let Asi := A.si
  let Aso := A.so
  let Asu := A.su
  let Da := Cu ^^^ (rol64 Ce 1)
  let De := Ca ^^^ (rol64 Ci 1)
  let Di := Ce ^^^ (rol64 Co 1)
  let Do := Ci ^^^ (rol64 Cu 1)
  let Du := Co ^^^ (rol64 Ca 1)
  let Aba := Aba ^^^ Da
  let Bba := Aba
  let Age := Age ^^^ De
  let Bbe := (rol64 Age 44)
  let Aki := Aki ^^^ Di
  let Bbi := (rol64 Aki 43)
  let Amo := Amo ^^^ Do
  let Bbo := (rol64 Amo 21)
  let Asu := Asu ^^^ Du
  let Bbu := (rol64 Asu 14)
  let Eba := Bba ^^^ ((~~~Bbe) &&& Bbi)
  let Eba := Eba ^^^ rc
  let Ebe := Bbe ^^^ ((~~~Bbi) &&& Bbo)
  let Ebi := Bbi ^^^ ((~~~Bbo) &&& Bbu)
  let Ebo := Bbo ^^^ ((~~~Bbu) &&& Bba)
  let Ebu := Bbu ^^^ ((~~~Bba) &&& Bbe)
  let Abo := Abo ^^^ Do
  let Bga := (rol64 Abo 28)
  let Agu := Agu ^^^ Du
  let Bge := (rol64 Agu 20)
  let Aka := Aka ^^^ Da
  let Bgi := (rol64 Aka 3)
  let Ame := Ame ^^^ De
  let Bgo := (rol64 Ame 45)
  let Asi := Asi ^^^ Di
  let Bgu := (rol64 Asi 61)
  let Ega := Bga ^^^ ((~~~Bge) &&& Bgi)
  let Ege := Bge ^^^ ((~~~Bgi) &&& Bgo)
  let Egi := Bgi ^^^ ((~~~Bgo) &&& Bgu)
  let Ego := Bgo ^^^ ((~~~Bgu) &&& Bga)
  let Egu := Bgu ^^^ ((~~~Bga) &&& Bge)
  let Abe := Abe ^^^ De
  let Bka := (rol64 Abe 1)
  let Agi := Agi ^^^ Di
  let Bke := (rol64 Agi 6)
  let Ako := Ako ^^^ Do
  let Bki := (rol64 Ako 25)
  let Amu := Amu ^^^ Du
  let Bko := (rol64 Amu 8)
  let Asa := Asa ^^^ Da
  let Bku := (rol64 Asa 18)
  let Eka := Bka ^^^ ((~~~Bke) &&& Bki)
  let Eke := Bke ^^^ ((~~~Bki) &&& Bko)
  let Eki := Bki ^^^ ((~~~Bko) &&& Bku)
  let Eko := Bko ^^^ ((~~~Bku) &&& Bka)
  let Eku := Bku ^^^ ((~~~Bka) &&& Bke)
  let Abu := Abu ^^^ Du
  let Bma := (rol64 Abu 27)
  let Aga := Aga ^^^ Da
  let Bme := (rol64 Aga 36)
  let Ake := Ake ^^^ De
  let Bmi := (rol64 Ake 10)
  let Ami := Ami ^^^ Di
  let Bmo := (rol64 Ami 15)
  let Aso := Aso ^^^ Do
  let Bmu := (rol64 Aso 56)
  let Ema := Bma ^^^ ((~~~Bme) &&& Bmi)
  let Eme := Bme ^^^ ((~~~Bmi) &&& Bmo)
  let Emi := Bmi ^^^ ((~~~Bmo) &&& Bmu)
  let Emo := Bmo ^^^ ((~~~Bmu) &&& Bma)
  let Emu := Bmu ^^^ ((~~~Bma) &&& Bme)
  let Abi := Abi ^^^ Di
  let Bsa := (rol64 Abi 62)
  let Ago := Ago ^^^ Do
  let Bse := (rol64 Ago 55)
  let Aku := Aku ^^^ Du
  let Bsi := (rol64 Aku 39)
  let Ama := Ama ^^^ Da
  let Bso := (rol64 Ama 41)
  let Ase := Ase ^^^ De
  let Bsu := (rol64 Ase 2)
  let Esa := Bsa ^^^ ((~~~Bse) &&& Bsi)
  let Ese := Bse ^^^ ((~~~Bsi) &&& Bso)
  let Esi := Bsi ^^^ ((~~~Bso) &&& Bsu)
  let Eso := Bso ^^^ ((~~~Bsu) &&& Bsa)
  let Esu := Bsu ^^^ ((~~~Bsa) &&& Bse)
  (⟨Aba, Abe, Abi, Abo, Abu, Aga, Age, Agi, Ago, Agu, Aka, Ake, Aki, Ako, Aku, Ama, Ame, Ami, Amo, Amu, Asa, Ase, Asi, Aso, Asu⟩,
   ⟨Eba, Ebe, Ebi, Ebo, Ebu, Ega, Ege, Egi, Ego, Egu, Eka, Eke, Eki, Eko, Eku, Ema, Eme, Emi, Emo, Emu, Esa, Ese, Esi, Eso, Esu⟩)

/-- `KeccakF1600RoundConstants` (KeccakP-1600-opt64.c:57-81). -/
def roundConstants : List Lane := [
  0x0000000000000001, 0x0000000000008082, 0x800000000000808a, 0x8000000080008000,
  0x000000000000808b, 0x0000000080000001, 0x8000000080008081, 0x8000000000008009,
  0x000000000000008a, 0x0000000000000088, 0x0000000080008009, 0x000000008000000a,
  0x000000008000808b, 0x800000000000008b, 0x8000000000008089, 0x8000000000008003,
  0x8000000000008002, 0x8000000000000080, 0x000000000000800a, 0x800000008000000a,
  0x8000000080008081, 0x8000000000008080, 0x0000000080000001, 0x8000000080008008]

/-- The local variables of a permutation function: `A`, `E` and `C`.  `B` and `D` are always assigned before
they are used within one macro and do not appear. -/
structure St where
  A : V
  E : V
  c : C5

/-- The configuration: `KeccakP1600_useLaneComplementing`, and `FullUnrolling` or the value of `Unrolling`. -/
structure Cfg where
  lc : Bool
  unr : Unrolling

/-- `prepareTheta` on the local variables. -/
def prep (s : St) : St := { s with c := prepareTheta s.A }

/-- `thetaRhoPiChiIotaPrepareTheta(i, A, E)`. -/
def AE (k : Cfg) (i : Nat) (s : St) : St :=
  let r := (if k.lc then lcRoundPrep else roundPrep) (roundConstants.getD i 0) s.A s.c
  ⟨r.1, r.2.1, r.2.2⟩

/-- `thetaRhoPiChiIotaPrepareTheta(i, E, A)`. -/
def EA (k : Cfg) (i : Nat) (s : St) : St :=
  let r := (if k.lc then lcRoundPrep else roundPrep) (roundConstants.getD i 0) s.E s.c
  ⟨r.2.1, r.1, r.2.2⟩

/-- `thetaRhoPiChiIota(i, E, A)`. -/
def lastEA (k : Cfg) (i : Nat) (s : St) : St :=
  let r := (if k.lc then lcRound else round) (roundConstants.getD i 0) s.E s.c
  ⟨r.2, r.1, s.c⟩

/-- `copyStateVariables(A, E)` (KeccakP-1600-64.macros:515-540). -/
def copyAE (s : St) : St := { s with A := s.E }

/-- `for(; i<24; i+=step) body(i)`; the fuel 24 is always enough for `step > 0`. -/
def forLoop (step : Nat) (body : Nat → St → St) : Nat → Nat → St → St
  | 0, _, s => s
  | fuel + 1, i, s => if i < 24 then forLoop step body fuel (i + step) (body i s) else s

/-- Two rounds of an unrolled body. -/
def two (k : Cfg) (i : Nat) (s : St) : St := EA k (i + 1) (AE k i s)

/-- `rounds24` (KeccakP-1600-unrolling.macros:18-43, 77-92, 126-135, 165-172, 198-205, 233-238, 262-267). -/
def rounds24 (k : Cfg) (s : St) : St :=
  let s := prep s
  match k.unr with
  | .full =>
    let s := two k 20 <| two k 18 <| two k 16 <| two k 14 <| two k 12 <| two k 10 <| two k 8 <| two k 6 <|
      two k 4 <| two k 2 <| two k 0 s
    lastEA k 23 (AE k 22 s)
  | .u12 => forLoop 12 (fun i s => two k (i + 10) <| two k (i + 8) <| two k (i + 6) <| two k (i + 4) <|
      two k (i + 2) <| two k i s) 24 0 s
  | .u6 => forLoop 6 (fun i s => two k (i + 4) <| two k (i + 2) <| two k i s) 24 0 s
  | .u4 => forLoop 4 (fun i s => two k (i + 2) <| two k i s) 24 0 s
  | .u3 => forLoop 3 (fun i s => copyAE <| AE k (i + 2) <| two k i s) 24 0 s
  | .u2 => forLoop 2 (fun i s => two k i s) 24 0 s
  | .u1 => forLoop 1 (fun i s => copyAE <| AE k i s) 24 0 s

/-- `rounds12` (KeccakP-1600-unrolling.macros:45-58, 94-107, 137-146, 174-181, 207-214, 240-245, 269-274). -/
def rounds12 (k : Cfg) (s : St) : St :=
  let s := prep s
  match k.unr with
  | .full =>
    let s := two k 20 <| two k 18 <| two k 16 <| two k 14 <| two k 12 s
    lastEA k 23 (AE k 22 s)
  | .u12 =>
    let s := two k 20 <| two k 18 <| two k 16 <| two k 14 <| two k 12 s
    lastEA k 23 (AE k 22 s)
  | .u6 => forLoop 6 (fun i s => two k (i + 4) <| two k (i + 2) <| two k i s) 24 12 s
  | .u4 => forLoop 4 (fun i s => two k (i + 2) <| two k i s) 24 12 s
  | .u3 => forLoop 3 (fun i s => copyAE <| AE k (i + 2) <| two k i s) 24 12 s
  | .u2 => forLoop 2 (fun i s => two k i s) 24 12 s
  | .u1 => forLoop 1 (fun i s => copyAE <| AE k i s) 24 12 s

/-- `roundsN(__nrounds)` (KeccakP-1600-unrolling.macros:294-305), for `nrounds ≤ 24` (`i` is unsigned). -/
def roundsN (k : Cfg) (nrounds : Nat) (s : St) : St :=
  let s := prep s
  let i := 24 - nrounds
  let r := if i % 2 ≠ 0 then (copyAE (AE k i s), i + 1) else (s, i)
  forLoop 2 (fun i s => two k i s) 24 r.2 r.1

/-- `copyFromState` (KeccakP-1600-64.macros:461-486). -/
def copyFromState (L : Lanes) : V :=
  ⟨L 0, L 1, L 2, L 3, L 4, L 5, L 6, L 7, L 8, L 9, L 10, L 11, L 12, L 13, L 14, L 15, L 16, L 17, L 18, L 19,
   L 20, L 21, L 22, L 23, L 24⟩

/-- `copyToState` (KeccakP-1600-64.macros:488-513). -/
def copyToState (A : V) : Lanes := fun i =>
  match i.val with
  | 0 => A.ba | 1 => A.be | 2 => A.bi | 3 => A.bo | 4 => A.bu
  | 5 => A.ga | 6 => A.ge | 7 => A.gi | 8 => A.go | 9 => A.gu
  | 10 => A.ka | 11 => A.ke | 12 => A.ki | 13 => A.ko | 14 => A.ku
  | 15 => A.ma | 16 => A.me | 17 => A.mi | 18 => A.mo | 19 => A.mu
  | 20 => A.sa | 21 => A.se | 22 => A.si | 23 => A.so | _ => A.su

/-- `KeccakP1600_Permute_Nrounds` (KeccakP-1600-opt64.c:328-338).  `E0` and `C0` are the values of the
uninitialised local variables. -/
def permuteNrounds (k : Cfg) (E0 : V) (C0 : C5) (L : Lanes) (nr : Nat) : Lanes :=
  copyToState (roundsN k nr ⟨copyFromState L, E0, C0⟩).A

/-- `KeccakP1600_Permute_24rounds` (KeccakP-1600-opt64.c:342-353). -/
def permute24 (k : Cfg) (E0 : V) (C0 : C5) (L : Lanes) : Lanes :=
  copyToState (rounds24 k ⟨copyFromState L, E0, C0⟩).A

/-- `KeccakP1600_Permute_12rounds` (KeccakP-1600-opt64.c:357-368). -/
def permute12 (k : Cfg) (E0 : V) (C0 : C5) (L : Lanes) : Lanes :=
  copyToState (rounds12 k ⟨copyFromState L, E0, C0⟩).A

/-- `addInput(X, input, laneCount)` (KeccakP-1600-64.macros:566-758). -/
def addInput (v : V) (input : Nat → Lane) (laneCount : Nat) : V :=
  if laneCount = 21 then
    { v with ba := v.ba ^^^ input 0, be := v.be ^^^ input 1, bi := v.bi ^^^ input 2, bo := v.bo ^^^ input 3,
             bu := v.bu ^^^ input 4, ga := v.ga ^^^ input 5, ge := v.ge ^^^ input 6, gi := v.gi ^^^ input 7,
             go := v.go ^^^ input 8, gu := v.gu ^^^ input 9, ka := v.ka ^^^ input 10, ke := v.ke ^^^ input 11,
             ki := v.ki ^^^ input 12, ko := v.ko ^^^ input 13, ku := v.ku ^^^ input 14, ma := v.ma ^^^ input 15,
             me := v.me ^^^ input 16, mi := v.mi ^^^ input 17, mo := v.mo ^^^ input 18, mu := v.mu ^^^ input 19,
             sa := v.sa ^^^ input 20 }
  else
    if laneCount < 16 then
      if laneCount < 8 then
        if laneCount < 4 then
          if laneCount < 2 then
            if laneCount < 1 then
              v
            else
              { v with ba := v.ba ^^^ input 0 }
          else
            let v := { v with ba := v.ba ^^^ input 0, be := v.be ^^^ input 1 }
            if laneCount < 3 then
              v
            else
              { v with bi := v.bi ^^^ input 2 }
        else
          let v := { v with ba := v.ba ^^^ input 0, be := v.be ^^^ input 1, bi := v.bi ^^^ input 2, bo := v.bo ^^^ input 3 }
          if laneCount < 6 then
            if laneCount < 5 then
              v
            else
              { v with bu := v.bu ^^^ input 4 }
          else
            let v := { v with bu := v.bu ^^^ input 4, ga := v.ga ^^^ input 5 }
            if laneCount < 7 then
              v
            else
              { v with ge := v.ge ^^^ input 6 }
      else
        let v := { v with ba := v.ba ^^^ input 0, be := v.be ^^^ input 1, bi := v.bi ^^^ input 2, bo := v.bo ^^^ input 3,
                          bu := v.bu ^^^ input 4, ga := v.ga ^^^ input 5, ge := v.ge ^^^ input 6, gi := v.gi ^^^ input 7 }
        if laneCount < 12 then
          if laneCount < 10 then
            if laneCount < 9 then
              v
            else
              { v with go := v.go ^^^ input 8 }
          else
            let v := { v with go := v.go ^^^ input 8, gu := v.gu ^^^ input 9 }
            if laneCount < 11 then
              v
            else
              { v with ka := v.ka ^^^ input 10 }
        else
          let v := { v with go := v.go ^^^ input 8, gu := v.gu ^^^ input 9, ka := v.ka ^^^ input 10, ke := v.ke ^^^ input 11 }
          if laneCount < 14 then
            if laneCount < 13 then
              v
            else
              { v with ki := v.ki ^^^ input 12 }
          else
            let v := { v with ki := v.ki ^^^ input 12, ko := v.ko ^^^ input 13 }
            if laneCount < 15 then
              v
            else
              { v with ku := v.ku ^^^ input 14 }
    else
      let v := { v with ba := v.ba ^^^ input 0, be := v.be ^^^ input 1, bi := v.bi ^^^ input 2, bo := v.bo ^^^ input 3,
                        bu := v.bu ^^^ input 4, ga := v.ga ^^^ input 5, ge := v.ge ^^^ input 6, gi := v.gi ^^^ input 7,
                        go := v.go ^^^ input 8, gu := v.gu ^^^ input 9, ka := v.ka ^^^ input 10, ke := v.ke ^^^ input 11,
                        ki := v.ki ^^^ input 12, ko := v.ko ^^^ input 13, ku := v.ku ^^^ input 14, ma := v.ma ^^^ input 15 }
      if laneCount < 24 then
        if laneCount < 20 then
          if laneCount < 18 then
            if laneCount < 17 then
              v
            else
              { v with me := v.me ^^^ input 16 }
          else
            let v := { v with me := v.me ^^^ input 16, mi := v.mi ^^^ input 17 }
            if laneCount < 19 then
              v
            else
              { v with mo := v.mo ^^^ input 18 }
        else
          let v := { v with me := v.me ^^^ input 16, mi := v.mi ^^^ input 17, mo := v.mo ^^^ input 18, mu := v.mu ^^^ input 19 }
          if laneCount < 22 then
            if laneCount < 21 then
              v
            else
              { v with sa := v.sa ^^^ input 20 }
          else
            let v := { v with sa := v.sa ^^^ input 20, se := v.se ^^^ input 21 }
            if laneCount < 23 then
              v
            else
              { v with si := v.si ^^^ input 22 }
      else
        let v := { v with me := v.me ^^^ input 16, mi := v.mi ^^^ input 17, mo := v.mo ^^^ input 18, mu := v.mu ^^^ input 19,
                          sa := v.sa ^^^ input 20, se := v.se ^^^ input 21, si := v.si ^^^ input 22, so := v.so ^^^ input 23 }
        if laneCount < 25 then
          v
        else
          { v with su := v.su ^^^ input 24 }

/-- The loop of the fast loop functions (KeccakP-1600-opt64.c:534-539, 557-562): local variables, position in
the data (`inDataAsLanes`) and `dataByteLen`; `none` when the loop does not terminate (`laneCount = 0`). -/
def fastLoop (rounds : St → St) (laneCount : Nat) (data : Bytes) : Nat → St → Nat → Nat → Option (St × Nat)
  | 0, _, _, _ => none
  | fuel + 1, s, pos, dataByteLen =>
    if dataByteLen ≥ laneCount * 8 then
      let input := fun i => wordOfBytes (data.drop ((pos + i) * 8))
      let s := rounds { s with A := addInput s.A input laneCount }
      fastLoop rounds laneCount data fuel s (pos + laneCount) (dataByteLen - laneCount * 8)
    else some (s, dataByteLen)

/-- `KeccakF1600_FastLoop_Absorb` (KeccakP-1600-opt64.c:523-542): the state and the returned value. -/
def fastLoopAbsorb24 (k : Cfg) (E0 : V) (C0 : C5) (L : Lanes) (laneCount : Nat) (data : Bytes) :
    Option (Lanes × Nat) :=
  (fastLoop (rounds24 k) laneCount data (data.length + 1) ⟨copyFromState L, E0, C0⟩ 0 data.length).map fun r =>
    (copyToState r.1.A, data.length - r.2)

/-- `KeccakP1600_12rounds_FastLoop_Absorb` (KeccakP-1600-opt64.c:546-565). -/
def fastLoopAbsorb12 (k : Cfg) (E0 : V) (C0 : C5) (L : Lanes) (laneCount : Nat) (data : Bytes) :
    Option (Lanes × Nat) :=
  (fastLoop (rounds12 k) laneCount data (data.length + 1) ⟨copyFromState L, E0, C0⟩ 0 data.length).map fun r =>
    (copyToState r.1.A, data.length - r.2)

end Opt64

end KeccakP1600
