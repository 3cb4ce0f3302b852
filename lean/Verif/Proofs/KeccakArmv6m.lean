import Verif.Model.KeccakArmv6m
import Verif.Proofs.KeccakArm32

/-! ## the rounds of the ARMv6-M assembly are those of the C code for 32 bits, in place -/

namespace KeccakP1600.Arm6

open Inplace32 (rol32 Half Effect)
open Arm32 (set r1 r2 r3 r4 r5 r6 r7 r8 r9 r10 r11 r12 lr)

/-! the macros on a machine whose pointer does not move -/

namespace Flat

abbrev M := Arm32.M

def mov (d n : Nat) (m : M) : M := { m with r := set m.r d (m.r n) }
def movi (d i : Nat) (m : M) : M := { m with r := set m.r d (BitVec.ofNat 32 i) }
/-- `rors` with the rotation of the C code -/
def rors (d k : Nat) (m : M) : M :=
  { m with r := set m.r d (if 0 < (m.r k).toNat % 256 ∧ (m.r k).toNat % 256 < 32 then rol32 (m.r d) (32 - (m.r k).toNat % 256)
      else (m.r d).rotateRight ((m.r k).toNat % 256)) }
/-- `eor` with the operands exchanged -/
def eorC (d n k : Nat) (m : M) : M := { m with r := set m.r d (m.r k ^^^ m.r n) }
def xorrol (result aa bb : Nat) (m : M) : M :=
  let m := mov result bb m
  let m := rors result r2 m
  eorC result result aa m
def xorrolR2 (aa bb : Nat) (m : M) : M :=
  let m := rors bb r2 m
  eorC bb bb aa m
def xorh (result aa bb : Nat) (m : M) : M :=
  let m := mov r1 bb m
  let m := eorC r1 r1 aa m
  mov result r1 m
def xandnot (resofs : Fin 50) (aa bb cc : Nat) (m : M) : M :=
  let m := mov r1 cc m
  let m := Arm32.bicC r1 r1 bb m
  let m := eorC r1 r1 aa m
  Arm32.str r1 resofs m
def xandnotR4 (resofs : Fin 50) (aa bb cc : Nat) (m : M) : M :=
  let m := Arm32.bicC cc cc bb m
  let m := eorC cc cc aa m
  Arm32.str cc resofs m
def rorBy (d rot : Nat) (m : M) : M := rors d r1 (movi r1 (32 - rot) m)
def rorByIf (d rot : Nat) (m : M) : M := if 0 < rot then rorBy d rot m else m
def thetaRhoPiChiIota (aA1 : Fin 50) (aDax : Nat) (aA2 : Fin 50) (aDex rot2 : Nat) (aA3 : Fin 50) (aDix rot3 : Nat)
    (aA4 : Fin 50) (aDox rot4 : Nat) (aA5 : Fin 50) (aDux rot5 : Nat) (c : Word) (m : M) : M :=
  let m := Arm32.ldr r3 aA1 m
  let m := Arm32.ldr r4 aA2 m
  let m := Arm32.ldr r5 aA3 m
  let m := Arm32.ldr r6 aA4 m
  let m := Arm32.ldr r7 aA5 m
  let m := mov r1 aDax m
  let m := Arm32.eor r3 r3 r1 m
  let m := Arm32.eor r5 r5 aDix m
  let m := mov r1 aDex m
  let m := Arm32.eor r4 r4 r1 m
  let m := mov r1 aDox m
  let m := Arm32.eor r6 r6 r1 m
  let m := mov r1 aDux m
  let m := Arm32.eor r7 r7 r1 m
  let m := rorBy r4 rot2 m
  let m := rorBy r5 rot3 m
  let m := rorBy r6 rot4 m
  let m := rorBy r7 rot5 m
  let m := xandnot aA2 r4 r5 r6 m
  let m := xandnot aA3 r5 r6 r7 m
  let m := xandnot aA4 r6 r7 r3 m
  let m := xandnot aA5 r7 r3 r4 m
  let m := Arm32.bicC r5 r5 r4 m
  let m := { m with r := set m.r r4 c }
  let m := Arm32.eor r3 r3 r5 m
  let m := Arm32.eor r3 r3 r4 m
  Arm32.str r3 aA1 m
def thetaRhoPiChi (aB1 : Nat) (aA1 : Fin 50) (aDax rot1 aB2 : Nat) (aA2 : Fin 50) (aDex rot2 aB3 : Nat) (aA3 : Fin 50)
    (aDix rot3 aB4 : Nat) (aA4 : Fin 50) (aDox rot4 aB5 : Nat) (aA5 : Fin 50) (aDux rot5 : Nat) (m : M) : M :=
  let m := Arm32.ldr aB1 aA1 m
  let m := Arm32.ldr aB2 aA2 m
  let m := Arm32.ldr aB3 aA3 m
  let m := Arm32.ldr aB4 aA4 m
  let m := Arm32.ldr aB5 aA5 m
  let m := mov r1 aDax m
  let m := Arm32.eor aB1 aB1 r1 m
  let m := Arm32.eor aB3 aB3 aDix m
  let m := mov r1 aDex m
  let m := Arm32.eor aB2 aB2 r1 m
  let m := mov r1 aDox m
  let m := Arm32.eor aB4 aB4 r1 m
  let m := mov r1 aDux m
  let m := Arm32.eor aB5 aB5 r1 m
  let m := rorBy aB1 rot1 m
  let m := rorByIf aB2 rot2 m
  let m := rorBy aB3 rot3 m
  let m := rorBy aB4 rot4 m
  let m := rorBy aB5 rot5 m
  let m := xandnot aA1 r3 r4 r5 m
  let m := xandnot aA2 r4 r5 r6 m
  let m := xandnotR4 aA5 r7 r3 r4 m
  let m := xandnotR4 aA4 r6 r7 r3 m
  xandnotR4 aA3 r5 r6 r7 m

def theta0 (m : M) : M :=
  let m := movi r2 31 m
  let m := Arm32.xor5 r3 Arm32.Abu0 Arm32.Agu0 Arm32.Aku0 Arm32.Amu0 Arm32.Asu0 m
  let m := Arm32.xor5 r7 Arm32.Abe1 Arm32.Age1 Arm32.Ake1 Arm32.Ame1 Arm32.Ase1 m
  let m := xorrol r6 r3 r7 m
  let m := Arm32.strSp r6 Arm32.mDa0 m
  let m := Arm32.xor5 r6 Arm32.Abu1 Arm32.Agu1 Arm32.Aku1 Arm32.Amu1 Arm32.Asu1 m
  let m := Arm32.xor5 r5 Arm32.Abe0 Arm32.Age0 Arm32.Ake0 Arm32.Ame0 Arm32.Ase0 m
  let m := xorh r8 r6 r5 m
  let m := mov lr r5 m
  let m := Arm32.strSp r1 Arm32.mDa1 m
  let m := Arm32.xor5 r5 Arm32.Abi0 Arm32.Agi0 Arm32.Aki0 Arm32.Ami0 Arm32.Asi0 m
  let m := xorrolR2 r5 r6 m
  let m := Arm32.strSp r6 Arm32.mDo0 m
  let m := Arm32.xor5 r4 Arm32.Abi1 Arm32.Agi1 Arm32.Aki1 Arm32.Ami1 Arm32.Asi1 m
  let m := Arm32.eor r3 r3 r4 m
  let m := Arm32.strSp r3 Arm32.mDo1 m
  let m := Arm32.xor5 r3 Arm32.Aba0 Arm32.Aga0 Arm32.Aka0 Arm32.Ama0 Arm32.Asa0 m
  let m := xorrolR2 r3 r4 m
  let m := mov r10 r4 m
  let m := Arm32.xor5 r6 Arm32.Aba1 Arm32.Aga1 Arm32.Aka1 Arm32.Ama1 Arm32.Asa1 m
  let m := xorh r11 r6 r5 m
  let m := Arm32.xor5 r4 Arm32.Abo1 Arm32.Ago1 Arm32.Ako1 Arm32.Amo1 Arm32.Aso1 m
  let m := mov r1 lr m
  let m := xorrol r5 r1 r4 m
  let m := Arm32.strSp r5 Arm32.mDi0 m
  let m := Arm32.xor5 r5 Arm32.Abo0 Arm32.Ago0 Arm32.Ako0 Arm32.Amo0 Arm32.Aso0 m
  let m := Arm32.eor r7 r7 r5 m
  let m := xorrolR2 r5 r6 m
  let m := mov r12 r6 m
  let m := Arm32.eor r4 r4 r3 m
  let m := mov lr r4 m
  let m := mov r2 r7 m
  let m := Arm32.ldrSp r1 Arm32.mDo0 m
  mov r9 r1 m
def rest0 (c0 c1 : Word) (m : M) : M :=
  let m := thetaRhoPiChi r5 Arm32.Aka1 r8 2 r6 Arm32.Ame1 r11 23 r7 Arm32.Asi1 r2 31 r3 Arm32.Abo0 r9 14 r4 Arm32.Agu0 r12 10 m
  let m := thetaRhoPiChi r7 Arm32.Asa1 r8 9 r3 Arm32.Abe0 r10 0 r4 Arm32.Agi1 r2 3 r5 Arm32.Ako0 r9 12 r6 Arm32.Amu1 lr 4 m
  let m := Arm32.ldrSp r1 Arm32.mDa0 m
  let m := mov r8 r1 m
  let m := thetaRhoPiChi r4 Arm32.Aga0 r8 18 r5 Arm32.Ake0 r10 5 r6 Arm32.Ami1 r2 8 r7 Arm32.Aso0 r9 28 r3 Arm32.Abu1 lr 14 m
  let m := thetaRhoPiChi r6 Arm32.Ama0 r8 20 r7 Arm32.Ase1 r11 1 r3 Arm32.Abi1 r2 31 r4 Arm32.Ago0 r9 27 r5 Arm32.Aku0 r12 19 m
  let m := Arm32.ldrSp r1 Arm32.mDo1 m
  let m := mov r9 r1 m
  let m := thetaRhoPiChiIota Arm32.Aba0 r8 Arm32.Age0 r10 22 Arm32.Aki1 r2 22 Arm32.Amo1 r9 11 Arm32.Asu0 r12 7 c0 m
  let m := Arm32.ldrSp r2 Arm32.mDi0 m
  let m := thetaRhoPiChi r5 Arm32.Aka0 r8 1 r6 Arm32.Ame0 r10 22 r7 Arm32.Asi0 r2 30 r3 Arm32.Abo1 r9 14 r4 Arm32.Agu1 lr 10 m
  let m := thetaRhoPiChi r7 Arm32.Asa0 r8 9 r3 Arm32.Abe1 r11 1 r4 Arm32.Agi0 r2 3 r5 Arm32.Ako1 r9 13 r6 Arm32.Amu0 r12 4 m
  let m := Arm32.ldrSp r1 Arm32.mDa1 m
  let m := mov r8 r1 m
  let m := thetaRhoPiChi r4 Arm32.Aga1 r8 18 r5 Arm32.Ake1 r11 5 r6 Arm32.Ami0 r2 7 r7 Arm32.Aso1 r9 28 r3 Arm32.Abu0 r12 13 m
  let m := thetaRhoPiChi r6 Arm32.Ama1 r8 21 r7 Arm32.Ase0 r10 1 r3 Arm32.Abi0 r2 31 r4 Arm32.Ago1 r9 28 r5 Arm32.Aku1 lr 20 m
  let m := Arm32.ldrSp r1 Arm32.mDo0 m
  let m := mov r9 r1 m
  thetaRhoPiChiIota Arm32.Aba1 r8 Arm32.Age1 r11 22 Arm32.Aki0 r2 21 Arm32.Amo0 r9 10 Arm32.Asu1 lr 7 c1 m
def theta1 (m : M) : M :=
  let m := movi r2 31 m
  let m := Arm32.xor5 r3 Arm32.Asu0 Arm32.Agu0 Arm32.Amu0 Arm32.Abu1 Arm32.Aku1 m
  let m := Arm32.xor5 r7 Arm32.Age1 Arm32.Ame0 Arm32.Abe0 Arm32.Ake1 Arm32.Ase1 m
  let m := xorrol r6 r3 r7 m
  let m := Arm32.strSp r6 Arm32.mDa0 m
  let m := Arm32.xor5 r6 Arm32.Asu1 Arm32.Agu1 Arm32.Amu1 Arm32.Abu0 Arm32.Aku0 m
  let m := Arm32.xor5 r5 Arm32.Age0 Arm32.Ame1 Arm32.Abe1 Arm32.Ake0 Arm32.Ase0 m
  let m := xorh r8 r6 r5 m
  let m := mov lr r5 m
  let m := Arm32.strSp r1 Arm32.mDa1 m
  let m := Arm32.xor5 r5 Arm32.Aki1 Arm32.Asi1 Arm32.Agi0 Arm32.Ami1 Arm32.Abi0 m
  let m := xorrolR2 r5 r6 m
  let m := Arm32.strSp r6 Arm32.mDo0 m
  let m := Arm32.xor5 r4 Arm32.Aki0 Arm32.Asi0 Arm32.Agi1 Arm32.Ami0 Arm32.Abi1 m
  let m := Arm32.eor r3 r3 r4 m
  let m := Arm32.strSp r3 Arm32.mDo1 m
  let m := Arm32.xor5 r3 Arm32.Aba0 Arm32.Aka1 Arm32.Asa0 Arm32.Aga0 Arm32.Ama1 m
  let m := xorrolR2 r3 r4 m
  let m := mov r10 r4 m
  let m := Arm32.xor5 r6 Arm32.Aba1 Arm32.Aka0 Arm32.Asa1 Arm32.Aga1 Arm32.Ama0 m
  let m := xorh r11 r6 r5 m
  let m := Arm32.xor5 r4 Arm32.Amo0 Arm32.Abo1 Arm32.Ako0 Arm32.Aso1 Arm32.Ago0 m
  let m := mov r1 lr m
  let m := xorrol r5 r1 r4 m
  let m := Arm32.strSp r5 Arm32.mDi0 m
  let m := Arm32.xor5 r5 Arm32.Amo1 Arm32.Abo0 Arm32.Ako1 Arm32.Aso0 Arm32.Ago1 m
  let m := Arm32.eor r7 r7 r5 m
  let m := xorrolR2 r5 r6 m
  let m := mov r12 r6 m
  let m := Arm32.eor r4 r4 r3 m
  let m := mov lr r4 m
  let m := mov r2 r7 m
  let m := Arm32.ldrSp r1 Arm32.mDo0 m
  mov r9 r1 m
def rest1 (c0 c1 : Word) (m : M) : M :=
  let m := thetaRhoPiChi r5 Arm32.Asa1 r8 2 r6 Arm32.Ake1 r11 23 r7 Arm32.Abi1 r2 31 r3 Arm32.Amo1 r9 14 r4 Arm32.Agu0 r12 10 m
  let m := thetaRhoPiChi r7 Arm32.Ama0 r8 9 r3 Arm32.Age0 r10 0 r4 Arm32.Asi0 r2 3 r5 Arm32.Ako1 r9 12 r6 Arm32.Abu0 lr 4 m
  let m := Arm32.ldrSp r1 Arm32.mDa0 m
  let m := mov r8 r1 m
  let m := thetaRhoPiChi r4 Arm32.Aka1 r8 18 r5 Arm32.Abe1 r10 5 r6 Arm32.Ami0 r2 8 r7 Arm32.Ago1 r9 28 r3 Arm32.Asu1 lr 14 m
  let m := thetaRhoPiChi r6 Arm32.Aga0 r8 20 r7 Arm32.Ase1 r11 1 r3 Arm32.Aki0 r2 31 r4 Arm32.Abo0 r9 27 r5 Arm32.Amu0 r12 19 m
  let m := Arm32.ldrSp r1 Arm32.mDo1 m
  let m := mov r9 r1 m
  let m := thetaRhoPiChiIota Arm32.Aba0 r8 Arm32.Ame1 r10 22 Arm32.Agi1 r2 22 Arm32.Aso1 r9 11 Arm32.Aku1 r12 7 c0 m
  let m := Arm32.ldrSp r2 Arm32.mDi0 m
  let m := thetaRhoPiChi r5 Arm32.Asa0 r8 1 r6 Arm32.Ake0 r10 22 r7 Arm32.Abi0 r2 30 r3 Arm32.Amo0 r9 14 r4 Arm32.Agu1 lr 10 m
  let m := thetaRhoPiChi r7 Arm32.Ama1 r8 9 r3 Arm32.Age1 r11 1 r4 Arm32.Asi1 r2 3 r5 Arm32.Ako0 r9 13 r6 Arm32.Abu1 r12 4 m
  let m := Arm32.ldrSp r1 Arm32.mDa1 m
  let m := mov r8 r1 m
  let m := thetaRhoPiChi r4 Arm32.Aka0 r8 18 r5 Arm32.Abe0 r11 5 r6 Arm32.Ami1 r2 7 r7 Arm32.Ago0 r9 28 r3 Arm32.Asu0 r12 13 m
  let m := thetaRhoPiChi r6 Arm32.Aga1 r8 21 r7 Arm32.Ase0 r10 1 r3 Arm32.Aki1 r2 31 r4 Arm32.Abo1 r9 28 r5 Arm32.Amu1 lr 20 m
  let m := Arm32.ldrSp r1 Arm32.mDo0 m
  let m := mov r9 r1 m
  thetaRhoPiChiIota Arm32.Aba1 r8 Arm32.Ame0 r11 22 Arm32.Agi0 r2 21 Arm32.Aso0 r9 10 Arm32.Aku0 lr 7 c1 m
def theta2 (m : M) : M :=
  let m := movi r2 31 m
  let m := Arm32.xor5 r3 Arm32.Aku1 Arm32.Agu0 Arm32.Abu1 Arm32.Asu1 Arm32.Amu1 m
  let m := Arm32.xor5 r7 Arm32.Ame0 Arm32.Ake0 Arm32.Age0 Arm32.Abe0 Arm32.Ase1 m
  let m := xorrol r6 r3 r7 m
  let m := Arm32.strSp r6 Arm32.mDa0 m
  let m := Arm32.xor5 r6 Arm32.Aku0 Arm32.Agu1 Arm32.Abu0 Arm32.Asu0 Arm32.Amu0 m
  let m := Arm32.xor5 r5 Arm32.Ame1 Arm32.Ake1 Arm32.Age1 Arm32.Abe1 Arm32.Ase0 m
  let m := xorh r8 r6 r5 m
  let m := mov lr r5 m
  let m := Arm32.strSp r1 Arm32.mDa1 m
  let m := Arm32.xor5 r5 Arm32.Agi1 Arm32.Abi1 Arm32.Asi1 Arm32.Ami0 Arm32.Aki1 m
  let m := xorrolR2 r5 r6 m
  let m := Arm32.strSp r6 Arm32.mDo0 m
  let m := Arm32.xor5 r4 Arm32.Agi0 Arm32.Abi0 Arm32.Asi0 Arm32.Ami1 Arm32.Aki0 m
  let m := Arm32.eor r3 r3 r4 m
  let m := Arm32.strSp r3 Arm32.mDo1 m
  let m := Arm32.xor5 r3 Arm32.Aba0 Arm32.Asa1 Arm32.Ama1 Arm32.Aka1 Arm32.Aga1 m
  let m := xorrolR2 r3 r4 m
  let m := mov r10 r4 m
  let m := Arm32.xor5 r6 Arm32.Aba1 Arm32.Asa0 Arm32.Ama0 Arm32.Aka0 Arm32.Aga0 m
  let m := xorh r11 r6 r5 m
  let m := Arm32.xor5 r4 Arm32.Aso0 Arm32.Amo0 Arm32.Ako1 Arm32.Ago0 Arm32.Abo0 m
  let m := mov r1 lr m
  let m := xorrol r5 r1 r4 m
  let m := Arm32.strSp r5 Arm32.mDi0 m
  let m := Arm32.xor5 r5 Arm32.Aso1 Arm32.Amo1 Arm32.Ako0 Arm32.Ago1 Arm32.Abo1 m
  let m := Arm32.eor r7 r7 r5 m
  let m := xorrolR2 r5 r6 m
  let m := mov r12 r6 m
  let m := Arm32.eor r4 r4 r3 m
  let m := mov lr r4 m
  let m := mov r2 r7 m
  let m := Arm32.ldrSp r1 Arm32.mDo0 m
  mov r9 r1 m
def rest2 (c0 c1 : Word) (m : M) : M :=
  let m := thetaRhoPiChi r5 Arm32.Ama0 r8 2 r6 Arm32.Abe0 r11 23 r7 Arm32.Aki0 r2 31 r3 Arm32.Aso1 r9 14 r4 Arm32.Agu0 r12 10 m
  let m := thetaRhoPiChi r7 Arm32.Aga0 r8 9 r3 Arm32.Ame1 r10 0 r4 Arm32.Abi0 r2 3 r5 Arm32.Ako0 r9 12 r6 Arm32.Asu0 lr 4 m
  let m := Arm32.ldrSp r1 Arm32.mDa0 m
  let m := mov r8 r1 m
  let m := thetaRhoPiChi r4 Arm32.Asa1 r8 18 r5 Arm32.Age1 r10 5 r6 Arm32.Ami1 r2 8 r7 Arm32.Abo1 r9 28 r3 Arm32.Aku0 lr 14 m
  let m := thetaRhoPiChi r6 Arm32.Aka1 r8 20 r7 Arm32.Ase1 r11 1 r3 Arm32.Agi0 r2 31 r4 Arm32.Amo1 r9 27 r5 Arm32.Abu1 r12 19 m
  let m := Arm32.ldrSp r1 Arm32.mDo1 m
  let m := mov r9 r1 m
  let m := thetaRhoPiChiIota Arm32.Aba0 r8 Arm32.Ake1 r10 22 Arm32.Asi0 r2 22 Arm32.Ago0 r9 11 Arm32.Amu1 r12 7 c0 m
  let m := Arm32.ldrSp r2 Arm32.mDi0 m
  let m := thetaRhoPiChi r5 Arm32.Ama1 r8 1 r6 Arm32.Abe1 r10 22 r7 Arm32.Aki1 r2 30 r3 Arm32.Aso0 r9 14 r4 Arm32.Agu1 lr 10 m
  let m := thetaRhoPiChi r7 Arm32.Aga1 r8 9 r3 Arm32.Ame0 r11 1 r4 Arm32.Abi1 r2 3 r5 Arm32.Ako1 r9 13 r6 Arm32.Asu1 r12 4 m
  let m := Arm32.ldrSp r1 Arm32.mDa1 m
  let m := mov r8 r1 m
  let m := thetaRhoPiChi r4 Arm32.Asa0 r8 18 r5 Arm32.Age0 r11 5 r6 Arm32.Ami0 r2 7 r7 Arm32.Abo0 r9 28 r3 Arm32.Aku1 r12 13 m
  let m := thetaRhoPiChi r6 Arm32.Aka0 r8 21 r7 Arm32.Ase0 r10 1 r3 Arm32.Agi1 r2 31 r4 Arm32.Amo0 r9 28 r5 Arm32.Abu0 lr 20 m
  let m := Arm32.ldrSp r1 Arm32.mDo0 m
  let m := mov r9 r1 m
  thetaRhoPiChiIota Arm32.Aba1 r8 Arm32.Ake0 r11 22 Arm32.Asi1 r2 21 Arm32.Ago1 r9 10 Arm32.Amu0 lr 7 c1 m
def theta3 (m : M) : M :=
  let m := movi r2 31 m
  let m := Arm32.xor5 r3 Arm32.Amu1 Arm32.Agu0 Arm32.Asu1 Arm32.Aku0 Arm32.Abu0 m
  let m := Arm32.xor5 r7 Arm32.Ake0 Arm32.Abe1 Arm32.Ame1 Arm32.Age0 Arm32.Ase1 m
  let m := xorrol r6 r3 r7 m
  let m := Arm32.strSp r6 Arm32.mDa0 m
  let m := Arm32.xor5 r6 Arm32.Amu0 Arm32.Agu1 Arm32.Asu0 Arm32.Aku1 Arm32.Abu1 m
  let m := Arm32.xor5 r5 Arm32.Ake1 Arm32.Abe0 Arm32.Ame0 Arm32.Age1 Arm32.Ase0 m
  let m := xorh r8 r6 r5 m
  let m := mov lr r5 m
  let m := Arm32.strSp r1 Arm32.mDa1 m
  let m := Arm32.xor5 r5 Arm32.Asi0 Arm32.Aki0 Arm32.Abi1 Arm32.Ami1 Arm32.Agi1 m
  let m := xorrolR2 r5 r6 m
  let m := Arm32.strSp r6 Arm32.mDo0 m
  let m := Arm32.xor5 r4 Arm32.Asi1 Arm32.Aki1 Arm32.Abi0 Arm32.Ami0 Arm32.Agi0 m
  let m := Arm32.eor r3 r3 r4 m
  let m := Arm32.strSp r3 Arm32.mDo1 m
  let m := Arm32.xor5 r3 Arm32.Aba0 Arm32.Ama0 Arm32.Aga1 Arm32.Asa1 Arm32.Aka0 m
  let m := xorrolR2 r3 r4 m
  let m := mov r10 r4 m
  let m := Arm32.xor5 r6 Arm32.Aba1 Arm32.Ama1 Arm32.Aga0 Arm32.Asa0 Arm32.Aka1 m
  let m := xorh r11 r6 r5 m
  let m := Arm32.xor5 r4 Arm32.Ago1 Arm32.Aso0 Arm32.Ako0 Arm32.Abo0 Arm32.Amo1 m
  let m := mov r1 lr m
  let m := xorrol r5 r1 r4 m
  let m := Arm32.strSp r5 Arm32.mDi0 m
  let m := Arm32.xor5 r5 Arm32.Ago0 Arm32.Aso1 Arm32.Ako1 Arm32.Abo1 Arm32.Amo0 m
  let m := Arm32.eor r7 r7 r5 m
  let m := xorrolR2 r5 r6 m
  let m := mov r12 r6 m
  let m := Arm32.eor r4 r4 r3 m
  let m := mov lr r4 m
  let m := mov r2 r7 m
  let m := Arm32.ldrSp r1 Arm32.mDo0 m
  mov r9 r1 m
def rest3 (c0 c1 : Word) (m : M) : M :=
  let m := thetaRhoPiChi r5 Arm32.Aga0 r8 2 r6 Arm32.Age0 r11 23 r7 Arm32.Agi0 r2 31 r3 Arm32.Ago0 r9 14 r4 Arm32.Agu0 r12 10 m
  let m := thetaRhoPiChi r7 Arm32.Aka1 r8 9 r3 Arm32.Ake1 r10 0 r4 Arm32.Aki1 r2 3 r5 Arm32.Ako1 r9 12 r6 Arm32.Aku1 lr 4 m
  let m := Arm32.ldrSp r1 Arm32.mDa0 m
  let m := mov r8 r1 m
  let m := thetaRhoPiChi r4 Arm32.Ama0 r8 18 r5 Arm32.Ame0 r10 5 r6 Arm32.Ami0 r2 8 r7 Arm32.Amo0 r9 28 r3 Arm32.Amu0 lr 14 m
  let m := thetaRhoPiChi r6 Arm32.Asa1 r8 20 r7 Arm32.Ase1 r11 1 r3 Arm32.Asi1 r2 31 r4 Arm32.Aso1 r9 27 r5 Arm32.Asu1 r12 19 m
  let m := Arm32.ldrSp r1 Arm32.mDo1 m
  let m := mov r9 r1 m
  let m := thetaRhoPiChiIota Arm32.Aba0 r8 Arm32.Abe0 r10 22 Arm32.Abi0 r2 22 Arm32.Abo0 r9 11 Arm32.Abu0 r12 7 c0 m
  let m := Arm32.ldrSp r2 Arm32.mDi0 m
  let m := thetaRhoPiChi r5 Arm32.Aga1 r8 1 r6 Arm32.Age1 r10 22 r7 Arm32.Agi1 r2 30 r3 Arm32.Ago1 r9 14 r4 Arm32.Agu1 lr 10 m
  let m := thetaRhoPiChi r7 Arm32.Aka0 r8 9 r3 Arm32.Ake0 r11 1 r4 Arm32.Aki0 r2 3 r5 Arm32.Ako0 r9 13 r6 Arm32.Aku0 r12 4 m
  let m := Arm32.ldrSp r1 Arm32.mDa1 m
  let m := mov r8 r1 m
  let m := thetaRhoPiChi r4 Arm32.Ama1 r8 18 r5 Arm32.Ame1 r11 5 r6 Arm32.Ami1 r2 7 r7 Arm32.Amo1 r9 28 r3 Arm32.Amu1 r12 13 m
  let m := thetaRhoPiChi r6 Arm32.Asa0 r8 21 r7 Arm32.Ase0 r10 1 r3 Arm32.Asi0 r2 31 r4 Arm32.Aso0 r9 28 r5 Arm32.Asu0 lr 20 m
  let m := Arm32.ldrSp r1 Arm32.mDo0 m
  let m := mov r9 r1 m
  thetaRhoPiChiIota Arm32.Aba1 r8 Arm32.Abe1 r11 22 Arm32.Abi1 r2 21 Arm32.Abo1 r9 10 Arm32.Abu1 lr 7 c1 m

end Flat

/-! the pointer -/

/-- a machine with its pointer -/
def lift (m : Arm32.M) (p q : Nat) (ok : Bool) : M := ⟨m.r, m.A, m.s, p, q, ok⟩

/-- where the pointer is after an access to the word `i` -/
def pos (i : Nat) : Nat := if 32 ≤ i then 32 else 0

theorem subR0_lift (m : Arm32.M) (q : Nat) (ok : Bool) : subR0 (lift m 32 q ok) = lift m 0 q ok := by
  unfold subR0
  rw [show XoodooArm.sub32 (lift m 32 q ok).p 32 = 0 from show XoodooArm.sub32 32 32 = 0 by decide]
  rfl

theorem moveR0_lift (prev curr : Nat) (m : Arm32.M) (q : Nat) (ok : Bool) :
    moveR0 prev curr (lift m (pos prev) q ok) = lift m (pos curr) q ok := by
  unfold moveR0 pos
  by_cases h1 : 32 ≤ prev <;> by_cases h2 : 32 ≤ curr
  · rw [if_neg (by omega), if_neg (by omega), if_pos h1, if_pos h2]
  · rw [if_pos (by omega), if_pos h1, if_neg h2, subR0_lift]
  · rw [if_neg (by omega), if_pos (by omega), if_neg h1, if_pos h2]; rfl
  · rw [if_neg (by omega), if_neg (by omega), if_neg h1, if_neg h2]

theorem ldrAt_lift (d : Nat) (i : Fin 50) (m : Arm32.M) (p q : Nat) (ok : Bool) :
    ldrAt d i.val (lift m p q ok) = lift (Arm32.ldr d i m) p q ok := by
  unfold ldrAt
  rw [show Fin.ofNat 50 i.val = i from Fin.ext (Nat.mod_eq_of_lt i.isLt), decide_eq_true i.isLt]
  rfl

theorem strAt_lift (d : Nat) (i : Fin 50) (m : Arm32.M) (p q : Nat) (ok : Bool) :
    strAt d i.val (lift m p q ok) = lift (Arm32.str d i m) p q ok := by
  unfold strAt
  rw [show Fin.ofNat 50 i.val = i from Fin.ext (Nat.mod_eq_of_lt i.isLt), decide_eq_true i.isLt]
  rfl

theorem load_lift (d prev : Nat) (i : Fin 50) (last : Nat) (m : Arm32.M) (q : Nat) (ok : Bool) :
    load d prev i.val last (lift m (pos prev) q ok) =
      lift (Arm32.ldr d i m) (if last = 1 then 0 else pos i.val) q ok := by
  unfold load
  rw [moveR0_lift]
  by_cases h : 32 ≤ i.val
  · simp only [if_pos h, pos]
    rw [show (lift m 32 q ok).p + (i.val - 32) = i.val by show 32 + (i.val - 32) = i.val; omega, ldrAt_lift]
    split
    · rw [subR0_lift]
    · rfl
  · simp only [if_neg h, pos]
    rw [show (lift m 0 q ok).p + i.val = i.val by show 0 + i.val = i.val; omega, ldrAt_lift]
    split <;> rfl

theorem store_lift (d prev : Nat) (i : Fin 50) (last : Nat) (m : Arm32.M) (q : Nat) (ok : Bool) :
    store d prev i.val last (lift m (pos prev) q ok) =
      lift (Arm32.str d i m) (if last = 1 then 0 else pos i.val) q ok := by
  unfold store
  rw [moveR0_lift]
  by_cases h : 32 ≤ i.val
  · simp only [if_pos h, pos]
    rw [show (lift m 32 q ok).p + (i.val - 32) = i.val by show 32 + (i.val - 32) = i.val; omega, strAt_lift]
    split
    · rw [subR0_lift]
    · rfl
  · simp only [if_neg h, pos]
    rw [show (lift m 0 q ok).p + i.val = i.val by show 0 + i.val = i.val; omega, strAt_lift]
    split <;> rfl

section
variable (m : Arm32.M) (p q : Nat) (ok : Bool)

theorem load0 (d : Nat) (i : Fin 50) : load d 0 i.val 0 (lift m 0 q ok) = lift (Arm32.ldr d i m) (pos i.val) q ok :=
  load_lift d 0 i 0 m q ok
theorem loadN (d : Nat) (j i : Fin 50) : load d j.val i.val 0 (lift m (pos j.val) q ok) = lift (Arm32.ldr d i m) (pos i.val) q ok :=
  load_lift d j i 0 m q ok
theorem loadL (d : Nat) (j i : Fin 50) : load d j.val i.val 1 (lift m (pos j.val) q ok) = lift (Arm32.ldr d i m) 0 q ok :=
  load_lift d j i 1 m q ok
theorem storeN (d : Nat) (j i : Fin 50) : store d j.val i.val 0 (lift m (pos j.val) q ok) = lift (Arm32.str d i m) (pos i.val) q ok :=
  store_lift d j i 0 m q ok
theorem storeL (d : Nat) (j i : Fin 50) : store d j.val i.val 1 (lift m (pos j.val) q ok) = lift (Arm32.str d i m) 0 q ok :=
  store_lift d j i 1 m q ok
theorem mov_lift (d n : Nat) : mov d n (lift m p q ok) = lift (Flat.mov d n m) p q ok := rfl
theorem movi_lift (d n : Nat) : movi d n (lift m p q ok) = lift (Flat.movi d n m) p q ok := rfl
theorem eor_lift (d n k : Nat) : eor d n k (lift m p q ok) = lift (Arm32.eor d n k m) p q ok := rfl
theorem ldrSp_lift (d i : Nat) : ldrSp d i (lift m p q ok) = lift (Arm32.ldrSp d i m) p q ok := rfl
theorem strSp_lift (d i : Nat) : strSp d i (lift m p q ok) = lift (Arm32.strSp d i m) p q ok := rfl
theorem eorC_lift (d n k : Nat) : eor d n k (lift m p q ok) = lift (Flat.eorC d n k m) p q ok := by
  rw [Flat.eorC, BitVec.xor_comm]; rfl
theorem bic_lift (d n k : Nat) : bic d n k (lift m p q ok) = lift (Arm32.bicC d n k m) p q ok := by
  rw [Arm32.bicC, BitVec.and_comm]; rfl
theorem rors_lift (d k : Nat) : rors d k (lift m p q ok) = lift (Flat.rors d k m) p q ok := by
  unfold Flat.rors
  split
  · rename_i h
    rw [← Arm32.ror_eq _ _ (show 0 < 32 - (m.r k).toNat % 256 by omega) (by omega),
      show 32 - (32 - (m.r k).toNat % 256) = (m.r k).toNat % 256 by omega]
    rfl
  · rfl
theorem rorBy_lift (d rot : Nat) : rorBy d rot (lift m p q ok) = lift (Flat.rorBy d rot m) p q ok := by
  rw [rorBy, movi_lift, rors_lift, Flat.rorBy]
theorem rorByIf_lift (d rot : Nat) : rorByIf d rot (lift m p q ok) = lift (Flat.rorByIf d rot m) p q ok := by
  unfold rorByIf Flat.rorByIf
  split
  · exact rorBy_lift m p q ok d rot
  · rfl
theorem xorrol_lift (d a b : Nat) : xorrol d a b (lift m p q ok) = lift (Flat.xorrol d a b m) p q ok := by
  simp only [xorrol, mov_lift, rors_lift, eorC_lift, Flat.xorrol]
theorem xorrolR2_lift (a b : Nat) : xorrolR2 a b (lift m p q ok) = lift (Flat.xorrolR2 a b m) p q ok := by
  simp only [xorrolR2, rors_lift, eorC_lift, Flat.xorrolR2]
theorem xorh_lift (d a b : Nat) : xorh d a b (lift m p q ok) = lift (Flat.xorh d a b m) p q ok := by
  simp only [xorh, mov_lift, eorC_lift, Flat.xorh]
theorem xor5_lift (d : Nat) (a b c e f : Fin 50) :
    xor5 d a.val b.val c.val e.val f.val (lift m 0 q ok) = lift (Arm32.xor5 d a b c e f m) 0 q ok := by
  simp only [xor5, load0, loadN, loadL, eor_lift, Arm32.xor5]
theorem xandnotN (i : Fin 50) (a b c : Nat) (j : Fin 50) :
    xandnot i.val a b c j.val 0 (lift m (pos j.val) q ok) = lift (Flat.xandnot i a b c m) (pos i.val) q ok := by
  simp only [xandnot, mov_lift, bic_lift, eorC_lift, storeN, Flat.xandnot]
theorem xandnotL (i : Fin 50) (a b c : Nat) (j : Fin 50) :
    xandnot i.val a b c j.val 1 (lift m (pos j.val) q ok) = lift (Flat.xandnot i a b c m) 0 q ok := by
  simp only [xandnot, mov_lift, bic_lift, eorC_lift, storeL, Flat.xandnot]
theorem xandnotR4N (i : Fin 50) (a b c : Nat) (j : Fin 50) :
    xandnotR4 i.val a b c j.val 0 (lift m (pos j.val) q ok) = lift (Flat.xandnotR4 i a b c m) (pos i.val) q ok := by
  simp only [xandnotR4, bic_lift, eorC_lift, storeN, Flat.xandnotR4]
theorem xandnotR4L (i : Fin 50) (a b c : Nat) (j : Fin 50) :
    xandnotR4 i.val a b c j.val 1 (lift m (pos j.val) q ok) = lift (Flat.xandnotR4 i a b c m) 0 q ok := by
  simp only [xandnotR4, bic_lift, eorC_lift, storeL, Flat.xandnotR4]

theorem set_lift (d : Nat) (c : Word) :
    ({ lift m p q ok with r := set (lift m p q ok).r d c } : M) = lift { m with r := set m.r d c } p q ok := rfl

theorem strR0_lift (d : Nat) (i : Fin 50) : strAt d ((lift m 0 q ok).p + i.val) (lift m 0 q ok) = lift (Arm32.str d i m) 0 q ok := by
  rw [show (lift m 0 q ok).p + i.val = i.val from Nat.zero_add _, strAt_lift]

theorem thetaRhoPiChi_lift (b1 : Nat) (a1 : Fin 50) (d1 t1 b2 : Nat) (a2 : Fin 50) (d2 t2 b3 : Nat) (a3 : Fin 50) (d3 t3 b4 : Nat)
    (a4 : Fin 50) (d4 t4 b5 : Nat) (a5 : Fin 50) (d5 t5 : Nat) :
    thetaRhoPiChi b1 a1.val d1 t1 b2 a2.val d2 t2 b3 a3.val d3 t3 b4 a4.val d4 t4 b5 a5.val d5 t5 (lift m 0 q ok) =
      lift (Flat.thetaRhoPiChi b1 a1 d1 t1 b2 a2 d2 t2 b3 a3 d3 t3 b4 a4 d4 t4 b5 a5 d5 t5 m) 0 q ok := by
  simp only [thetaRhoPiChi, load0, loadN, mov_lift, eor_lift, rorBy_lift, rorByIf_lift, xandnotN, xandnotR4N, xandnotR4L,
    Flat.thetaRhoPiChi]

theorem thetaRhoPiChiIota_lift (a1 : Fin 50) (d1 : Nat) (a2 : Fin 50) (d2 t2 : Nat) (a3 : Fin 50) (d3 t3 : Nat)
    (a4 : Fin 50) (d4 t4 : Nat) (a5 : Fin 50) (d5 t5 : Nat) (c : Word) :
    thetaRhoPiChiIota a1.val d1 a2.val d2 t2 a3.val d3 t3 a4.val d4 t4 a5.val d5 t5 c (lift m 0 q ok) =
      lift (Flat.thetaRhoPiChiIota a1 d1 a2 d2 t2 a3 d3 t3 a4 d4 t4 a5 d5 t5 c m) 0 q ok := by
  simp only [thetaRhoPiChiIota, load0, loadN, mov_lift, eor_lift, rorBy_lift, xandnotN, xandnotL, bic_lift, set_lift, strR0_lift,
    Flat.thetaRhoPiChiIota]

end

/-! the rounds -/

/-- `f` acts as `f'` and leaves the pointer at the beginning of the state -/
def Lifts (f : M → M) (f' : Arm32.M → Arm32.M) : Prop :=
  ∀ m q ok, f (lift m 0 q ok) = lift (f' m) 0 q ok

theorem Lifts.comp {f g : M → M} {f' g' : Arm32.M → Arm32.M} (h : Lifts f f') (k : Lifts g g') :
    Lifts (fun m => g (f m)) (fun m => g' (f' m)) := fun m q ok => by
  show g (f _) = _
  rw [h, k]

theorem mov_lifts (d n : Nat) : Lifts (mov d n) (Flat.mov d n) := fun _ _ _ => rfl
theorem movi_lifts (d n : Nat) : Lifts (movi d n) (Flat.movi d n) := fun _ _ _ => rfl
theorem eor_lifts (d n k : Nat) : Lifts (eor d n k) (Arm32.eor d n k) := fun _ _ _ => rfl
theorem ldrSp_lifts (d i : Nat) : Lifts (ldrSp d i) (Arm32.ldrSp d i) := fun _ _ _ => rfl
theorem strSp_lifts (d i : Nat) : Lifts (strSp d i) (Arm32.strSp d i) := fun _ _ _ => rfl
theorem xorrol_lifts (d a b : Nat) : Lifts (xorrol d a b) (Flat.xorrol d a b) := fun m q ok => xorrol_lift m 0 q ok d a b
theorem xorrolR2_lifts (a b : Nat) : Lifts (xorrolR2 a b) (Flat.xorrolR2 a b) := fun m q ok => xorrolR2_lift m 0 q ok a b
theorem xorh_lifts (d a b : Nat) : Lifts (xorh d a b) (Flat.xorh d a b) := fun m q ok => xorh_lift m 0 q ok d a b
theorem xor5_lifts (d : Nat) (a b c e f : Fin 50) :
    Lifts (xor5 d a.val b.val c.val e.val f.val) (Arm32.xor5 d a b c e f) := fun m q ok => xor5_lift m q ok d a b c e f
theorem thetaRhoPiChi_lifts (b1 : Nat) (a1 : Fin 50) (d1 t1 b2 : Nat) (a2 : Fin 50) (d2 t2 b3 : Nat) (a3 : Fin 50) (d3 t3 b4 : Nat)
    (a4 : Fin 50) (d4 t4 b5 : Nat) (a5 : Fin 50) (d5 t5 : Nat) :
    Lifts (thetaRhoPiChi b1 a1.val d1 t1 b2 a2.val d2 t2 b3 a3.val d3 t3 b4 a4.val d4 t4 b5 a5.val d5 t5)
      (Flat.thetaRhoPiChi b1 a1 d1 t1 b2 a2 d2 t2 b3 a3 d3 t3 b4 a4 d4 t4 b5 a5 d5 t5) := fun m q ok =>
  thetaRhoPiChi_lift m q ok b1 a1 d1 t1 b2 a2 d2 t2 b3 a3 d3 t3 b4 a4 d4 t4 b5 a5 d5 t5
theorem thetaRhoPiChiIota_lifts (a1 : Fin 50) (d1 : Nat) (a2 : Fin 50) (d2 t2 : Nat) (a3 : Fin 50) (d3 t3 : Nat)
    (a4 : Fin 50) (d4 t4 : Nat) (a5 : Fin 50) (d5 t5 : Nat) (c : Word) :
    Lifts (thetaRhoPiChiIota a1.val d1 a2.val d2 t2 a3.val d3 t3 a4.val d4 t4 a5.val d5 t5 c)
      (Flat.thetaRhoPiChiIota a1 d1 a2 d2 t2 a3 d3 t3 a4 d4 t4 a5 d5 t5 c) := fun m q ok =>
  thetaRhoPiChiIota_lift m q ok a1 d1 a2 d2 t2 a3 d3 t3 a4 d4 t4 a5 d5 t5 c

set_option maxRecDepth 20000 in
theorem theta0_lift : Lifts theta0 Flat.theta0 := by
  have h := movi_lifts r2 31
  have h := h.comp (xor5_lifts r3 Arm32.Abu0 Arm32.Agu0 Arm32.Aku0 Arm32.Amu0 Arm32.Asu0)
  have h := h.comp (xor5_lifts r7 Arm32.Abe1 Arm32.Age1 Arm32.Ake1 Arm32.Ame1 Arm32.Ase1)
  have h := h.comp (xorrol_lifts r6 r3 r7)
  have h := h.comp (strSp_lifts r6 mDa0)
  have h := h.comp (xor5_lifts r6 Arm32.Abu1 Arm32.Agu1 Arm32.Aku1 Arm32.Amu1 Arm32.Asu1)
  have h := h.comp (xor5_lifts r5 Arm32.Abe0 Arm32.Age0 Arm32.Ake0 Arm32.Ame0 Arm32.Ase0)
  have h := h.comp (xorh_lifts r8 r6 r5)
  have h := h.comp (mov_lifts lr r5)
  have h := h.comp (strSp_lifts r1 mDa1)
  have h := h.comp (xor5_lifts r5 Arm32.Abi0 Arm32.Agi0 Arm32.Aki0 Arm32.Ami0 Arm32.Asi0)
  have h := h.comp (xorrolR2_lifts r5 r6)
  have h := h.comp (strSp_lifts r6 mDo0)
  have h := h.comp (xor5_lifts r4 Arm32.Abi1 Arm32.Agi1 Arm32.Aki1 Arm32.Ami1 Arm32.Asi1)
  have h := h.comp (eor_lifts r3 r3 r4)
  have h := h.comp (strSp_lifts r3 mDo1)
  have h := h.comp (xor5_lifts r3 Arm32.Aba0 Arm32.Aga0 Arm32.Aka0 Arm32.Ama0 Arm32.Asa0)
  have h := h.comp (xorrolR2_lifts r3 r4)
  have h := h.comp (mov_lifts r10 r4)
  have h := h.comp (xor5_lifts r6 Arm32.Aba1 Arm32.Aga1 Arm32.Aka1 Arm32.Ama1 Arm32.Asa1)
  have h := h.comp (xorh_lifts r11 r6 r5)
  have h := h.comp (xor5_lifts r4 Arm32.Abo1 Arm32.Ago1 Arm32.Ako1 Arm32.Amo1 Arm32.Aso1)
  have h := h.comp (mov_lifts r1 lr)
  have h := h.comp (xorrol_lifts r5 r1 r4)
  have h := h.comp (strSp_lifts r5 mDi0)
  have h := h.comp (xor5_lifts r5 Arm32.Abo0 Arm32.Ago0 Arm32.Ako0 Arm32.Amo0 Arm32.Aso0)
  have h := h.comp (eor_lifts r7 r7 r5)
  have h := h.comp (xorrolR2_lifts r5 r6)
  have h := h.comp (mov_lifts r12 r6)
  have h := h.comp (eor_lifts r4 r4 r3)
  have h := h.comp (mov_lifts lr r4)
  have h := h.comp (mov_lifts r2 r7)
  have h := h.comp (ldrSp_lifts r1 mDo0)
  have h := h.comp (mov_lifts r9 r1)
  exact h

set_option maxRecDepth 20000 in
theorem rest0_lift (c0 c1 : Word) : Lifts (rest0 c0 c1) (Flat.rest0 c0 c1) := by
  have h := thetaRhoPiChi_lifts r5 Arm32.Aka1 r8 2 r6 Arm32.Ame1 r11 23 r7 Arm32.Asi1 r2 31 r3 Arm32.Abo0 r9 14 r4 Arm32.Agu0 r12 10
  have h := h.comp (thetaRhoPiChi_lifts r7 Arm32.Asa1 r8 9 r3 Arm32.Abe0 r10 0 r4 Arm32.Agi1 r2 3 r5 Arm32.Ako0 r9 12 r6 Arm32.Amu1 lr 4)
  have h := h.comp (ldrSp_lifts r1 mDa0)
  have h := h.comp (mov_lifts r8 r1)
  have h := h.comp (thetaRhoPiChi_lifts r4 Arm32.Aga0 r8 18 r5 Arm32.Ake0 r10 5 r6 Arm32.Ami1 r2 8 r7 Arm32.Aso0 r9 28 r3 Arm32.Abu1 lr 14)
  have h := h.comp (thetaRhoPiChi_lifts r6 Arm32.Ama0 r8 20 r7 Arm32.Ase1 r11 1 r3 Arm32.Abi1 r2 31 r4 Arm32.Ago0 r9 27 r5 Arm32.Aku0 r12 19)
  have h := h.comp (ldrSp_lifts r1 mDo1)
  have h := h.comp (mov_lifts r9 r1)
  have h := h.comp (thetaRhoPiChiIota_lifts Arm32.Aba0 r8 Arm32.Age0 r10 22 Arm32.Aki1 r2 22 Arm32.Amo1 r9 11 Arm32.Asu0 r12 7 c0)
  have h := h.comp (ldrSp_lifts r2 mDi0)
  have h := h.comp (thetaRhoPiChi_lifts r5 Arm32.Aka0 r8 1 r6 Arm32.Ame0 r10 22 r7 Arm32.Asi0 r2 30 r3 Arm32.Abo1 r9 14 r4 Arm32.Agu1 lr 10)
  have h := h.comp (thetaRhoPiChi_lifts r7 Arm32.Asa0 r8 9 r3 Arm32.Abe1 r11 1 r4 Arm32.Agi0 r2 3 r5 Arm32.Ako1 r9 13 r6 Arm32.Amu0 r12 4)
  have h := h.comp (ldrSp_lifts r1 mDa1)
  have h := h.comp (mov_lifts r8 r1)
  have h := h.comp (thetaRhoPiChi_lifts r4 Arm32.Aga1 r8 18 r5 Arm32.Ake1 r11 5 r6 Arm32.Ami0 r2 7 r7 Arm32.Aso1 r9 28 r3 Arm32.Abu0 r12 13)
  have h := h.comp (thetaRhoPiChi_lifts r6 Arm32.Ama1 r8 21 r7 Arm32.Ase0 r10 1 r3 Arm32.Abi0 r2 31 r4 Arm32.Ago1 r9 28 r5 Arm32.Aku1 lr 20)
  have h := h.comp (ldrSp_lifts r1 mDo0)
  have h := h.comp (mov_lifts r9 r1)
  have h := h.comp (thetaRhoPiChiIota_lifts Arm32.Aba1 r8 Arm32.Age1 r11 22 Arm32.Aki0 r2 21 Arm32.Amo0 r9 10 Arm32.Asu1 lr 7 c1)
  exact h

set_option maxRecDepth 20000 in
theorem theta1_lift : Lifts theta1 Flat.theta1 := by
  have h := movi_lifts r2 31
  have h := h.comp (xor5_lifts r3 Arm32.Asu0 Arm32.Agu0 Arm32.Amu0 Arm32.Abu1 Arm32.Aku1)
  have h := h.comp (xor5_lifts r7 Arm32.Age1 Arm32.Ame0 Arm32.Abe0 Arm32.Ake1 Arm32.Ase1)
  have h := h.comp (xorrol_lifts r6 r3 r7)
  have h := h.comp (strSp_lifts r6 mDa0)
  have h := h.comp (xor5_lifts r6 Arm32.Asu1 Arm32.Agu1 Arm32.Amu1 Arm32.Abu0 Arm32.Aku0)
  have h := h.comp (xor5_lifts r5 Arm32.Age0 Arm32.Ame1 Arm32.Abe1 Arm32.Ake0 Arm32.Ase0)
  have h := h.comp (xorh_lifts r8 r6 r5)
  have h := h.comp (mov_lifts lr r5)
  have h := h.comp (strSp_lifts r1 mDa1)
  have h := h.comp (xor5_lifts r5 Arm32.Aki1 Arm32.Asi1 Arm32.Agi0 Arm32.Ami1 Arm32.Abi0)
  have h := h.comp (xorrolR2_lifts r5 r6)
  have h := h.comp (strSp_lifts r6 mDo0)
  have h := h.comp (xor5_lifts r4 Arm32.Aki0 Arm32.Asi0 Arm32.Agi1 Arm32.Ami0 Arm32.Abi1)
  have h := h.comp (eor_lifts r3 r3 r4)
  have h := h.comp (strSp_lifts r3 mDo1)
  have h := h.comp (xor5_lifts r3 Arm32.Aba0 Arm32.Aka1 Arm32.Asa0 Arm32.Aga0 Arm32.Ama1)
  have h := h.comp (xorrolR2_lifts r3 r4)
  have h := h.comp (mov_lifts r10 r4)
  have h := h.comp (xor5_lifts r6 Arm32.Aba1 Arm32.Aka0 Arm32.Asa1 Arm32.Aga1 Arm32.Ama0)
  have h := h.comp (xorh_lifts r11 r6 r5)
  have h := h.comp (xor5_lifts r4 Arm32.Amo0 Arm32.Abo1 Arm32.Ako0 Arm32.Aso1 Arm32.Ago0)
  have h := h.comp (mov_lifts r1 lr)
  have h := h.comp (xorrol_lifts r5 r1 r4)
  have h := h.comp (strSp_lifts r5 mDi0)
  have h := h.comp (xor5_lifts r5 Arm32.Amo1 Arm32.Abo0 Arm32.Ako1 Arm32.Aso0 Arm32.Ago1)
  have h := h.comp (eor_lifts r7 r7 r5)
  have h := h.comp (xorrolR2_lifts r5 r6)
  have h := h.comp (mov_lifts r12 r6)
  have h := h.comp (eor_lifts r4 r4 r3)
  have h := h.comp (mov_lifts lr r4)
  have h := h.comp (mov_lifts r2 r7)
  have h := h.comp (ldrSp_lifts r1 mDo0)
  have h := h.comp (mov_lifts r9 r1)
  exact h

set_option maxRecDepth 20000 in
theorem rest1_lift (c0 c1 : Word) : Lifts (rest1 c0 c1) (Flat.rest1 c0 c1) := by
  have h := thetaRhoPiChi_lifts r5 Arm32.Asa1 r8 2 r6 Arm32.Ake1 r11 23 r7 Arm32.Abi1 r2 31 r3 Arm32.Amo1 r9 14 r4 Arm32.Agu0 r12 10
  have h := h.comp (thetaRhoPiChi_lifts r7 Arm32.Ama0 r8 9 r3 Arm32.Age0 r10 0 r4 Arm32.Asi0 r2 3 r5 Arm32.Ako1 r9 12 r6 Arm32.Abu0 lr 4)
  have h := h.comp (ldrSp_lifts r1 mDa0)
  have h := h.comp (mov_lifts r8 r1)
  have h := h.comp (thetaRhoPiChi_lifts r4 Arm32.Aka1 r8 18 r5 Arm32.Abe1 r10 5 r6 Arm32.Ami0 r2 8 r7 Arm32.Ago1 r9 28 r3 Arm32.Asu1 lr 14)
  have h := h.comp (thetaRhoPiChi_lifts r6 Arm32.Aga0 r8 20 r7 Arm32.Ase1 r11 1 r3 Arm32.Aki0 r2 31 r4 Arm32.Abo0 r9 27 r5 Arm32.Amu0 r12 19)
  have h := h.comp (ldrSp_lifts r1 mDo1)
  have h := h.comp (mov_lifts r9 r1)
  have h := h.comp (thetaRhoPiChiIota_lifts Arm32.Aba0 r8 Arm32.Ame1 r10 22 Arm32.Agi1 r2 22 Arm32.Aso1 r9 11 Arm32.Aku1 r12 7 c0)
  have h := h.comp (ldrSp_lifts r2 mDi0)
  have h := h.comp (thetaRhoPiChi_lifts r5 Arm32.Asa0 r8 1 r6 Arm32.Ake0 r10 22 r7 Arm32.Abi0 r2 30 r3 Arm32.Amo0 r9 14 r4 Arm32.Agu1 lr 10)
  have h := h.comp (thetaRhoPiChi_lifts r7 Arm32.Ama1 r8 9 r3 Arm32.Age1 r11 1 r4 Arm32.Asi1 r2 3 r5 Arm32.Ako0 r9 13 r6 Arm32.Abu1 r12 4)
  have h := h.comp (ldrSp_lifts r1 mDa1)
  have h := h.comp (mov_lifts r8 r1)
  have h := h.comp (thetaRhoPiChi_lifts r4 Arm32.Aka0 r8 18 r5 Arm32.Abe0 r11 5 r6 Arm32.Ami1 r2 7 r7 Arm32.Ago0 r9 28 r3 Arm32.Asu0 r12 13)
  have h := h.comp (thetaRhoPiChi_lifts r6 Arm32.Aga1 r8 21 r7 Arm32.Ase0 r10 1 r3 Arm32.Aki1 r2 31 r4 Arm32.Abo1 r9 28 r5 Arm32.Amu1 lr 20)
  have h := h.comp (ldrSp_lifts r1 mDo0)
  have h := h.comp (mov_lifts r9 r1)
  have h := h.comp (thetaRhoPiChiIota_lifts Arm32.Aba1 r8 Arm32.Ame0 r11 22 Arm32.Agi0 r2 21 Arm32.Aso0 r9 10 Arm32.Aku0 lr 7 c1)
  exact h

set_option maxRecDepth 20000 in
theorem theta2_lift : Lifts theta2 Flat.theta2 := by
  have h := movi_lifts r2 31
  have h := h.comp (xor5_lifts r3 Arm32.Aku1 Arm32.Agu0 Arm32.Abu1 Arm32.Asu1 Arm32.Amu1)
  have h := h.comp (xor5_lifts r7 Arm32.Ame0 Arm32.Ake0 Arm32.Age0 Arm32.Abe0 Arm32.Ase1)
  have h := h.comp (xorrol_lifts r6 r3 r7)
  have h := h.comp (strSp_lifts r6 mDa0)
  have h := h.comp (xor5_lifts r6 Arm32.Aku0 Arm32.Agu1 Arm32.Abu0 Arm32.Asu0 Arm32.Amu0)
  have h := h.comp (xor5_lifts r5 Arm32.Ame1 Arm32.Ake1 Arm32.Age1 Arm32.Abe1 Arm32.Ase0)
  have h := h.comp (xorh_lifts r8 r6 r5)
  have h := h.comp (mov_lifts lr r5)
  have h := h.comp (strSp_lifts r1 mDa1)
  have h := h.comp (xor5_lifts r5 Arm32.Agi1 Arm32.Abi1 Arm32.Asi1 Arm32.Ami0 Arm32.Aki1)
  have h := h.comp (xorrolR2_lifts r5 r6)
  have h := h.comp (strSp_lifts r6 mDo0)
  have h := h.comp (xor5_lifts r4 Arm32.Agi0 Arm32.Abi0 Arm32.Asi0 Arm32.Ami1 Arm32.Aki0)
  have h := h.comp (eor_lifts r3 r3 r4)
  have h := h.comp (strSp_lifts r3 mDo1)
  have h := h.comp (xor5_lifts r3 Arm32.Aba0 Arm32.Asa1 Arm32.Ama1 Arm32.Aka1 Arm32.Aga1)
  have h := h.comp (xorrolR2_lifts r3 r4)
  have h := h.comp (mov_lifts r10 r4)
  have h := h.comp (xor5_lifts r6 Arm32.Aba1 Arm32.Asa0 Arm32.Ama0 Arm32.Aka0 Arm32.Aga0)
  have h := h.comp (xorh_lifts r11 r6 r5)
  have h := h.comp (xor5_lifts r4 Arm32.Aso0 Arm32.Amo0 Arm32.Ako1 Arm32.Ago0 Arm32.Abo0)
  have h := h.comp (mov_lifts r1 lr)
  have h := h.comp (xorrol_lifts r5 r1 r4)
  have h := h.comp (strSp_lifts r5 mDi0)
  have h := h.comp (xor5_lifts r5 Arm32.Aso1 Arm32.Amo1 Arm32.Ako0 Arm32.Ago1 Arm32.Abo1)
  have h := h.comp (eor_lifts r7 r7 r5)
  have h := h.comp (xorrolR2_lifts r5 r6)
  have h := h.comp (mov_lifts r12 r6)
  have h := h.comp (eor_lifts r4 r4 r3)
  have h := h.comp (mov_lifts lr r4)
  have h := h.comp (mov_lifts r2 r7)
  have h := h.comp (ldrSp_lifts r1 mDo0)
  have h := h.comp (mov_lifts r9 r1)
  exact h

set_option maxRecDepth 20000 in
theorem rest2_lift (c0 c1 : Word) : Lifts (rest2 c0 c1) (Flat.rest2 c0 c1) := by
  have h := thetaRhoPiChi_lifts r5 Arm32.Ama0 r8 2 r6 Arm32.Abe0 r11 23 r7 Arm32.Aki0 r2 31 r3 Arm32.Aso1 r9 14 r4 Arm32.Agu0 r12 10
  have h := h.comp (thetaRhoPiChi_lifts r7 Arm32.Aga0 r8 9 r3 Arm32.Ame1 r10 0 r4 Arm32.Abi0 r2 3 r5 Arm32.Ako0 r9 12 r6 Arm32.Asu0 lr 4)
  have h := h.comp (ldrSp_lifts r1 mDa0)
  have h := h.comp (mov_lifts r8 r1)
  have h := h.comp (thetaRhoPiChi_lifts r4 Arm32.Asa1 r8 18 r5 Arm32.Age1 r10 5 r6 Arm32.Ami1 r2 8 r7 Arm32.Abo1 r9 28 r3 Arm32.Aku0 lr 14)
  have h := h.comp (thetaRhoPiChi_lifts r6 Arm32.Aka1 r8 20 r7 Arm32.Ase1 r11 1 r3 Arm32.Agi0 r2 31 r4 Arm32.Amo1 r9 27 r5 Arm32.Abu1 r12 19)
  have h := h.comp (ldrSp_lifts r1 mDo1)
  have h := h.comp (mov_lifts r9 r1)
  have h := h.comp (thetaRhoPiChiIota_lifts Arm32.Aba0 r8 Arm32.Ake1 r10 22 Arm32.Asi0 r2 22 Arm32.Ago0 r9 11 Arm32.Amu1 r12 7 c0)
  have h := h.comp (ldrSp_lifts r2 mDi0)
  have h := h.comp (thetaRhoPiChi_lifts r5 Arm32.Ama1 r8 1 r6 Arm32.Abe1 r10 22 r7 Arm32.Aki1 r2 30 r3 Arm32.Aso0 r9 14 r4 Arm32.Agu1 lr 10)
  have h := h.comp (thetaRhoPiChi_lifts r7 Arm32.Aga1 r8 9 r3 Arm32.Ame0 r11 1 r4 Arm32.Abi1 r2 3 r5 Arm32.Ako1 r9 13 r6 Arm32.Asu1 r12 4)
  have h := h.comp (ldrSp_lifts r1 mDa1)
  have h := h.comp (mov_lifts r8 r1)
  have h := h.comp (thetaRhoPiChi_lifts r4 Arm32.Asa0 r8 18 r5 Arm32.Age0 r11 5 r6 Arm32.Ami0 r2 7 r7 Arm32.Abo0 r9 28 r3 Arm32.Aku1 r12 13)
  have h := h.comp (thetaRhoPiChi_lifts r6 Arm32.Aka0 r8 21 r7 Arm32.Ase0 r10 1 r3 Arm32.Agi1 r2 31 r4 Arm32.Amo0 r9 28 r5 Arm32.Abu0 lr 20)
  have h := h.comp (ldrSp_lifts r1 mDo0)
  have h := h.comp (mov_lifts r9 r1)
  have h := h.comp (thetaRhoPiChiIota_lifts Arm32.Aba1 r8 Arm32.Ake0 r11 22 Arm32.Asi1 r2 21 Arm32.Ago1 r9 10 Arm32.Amu0 lr 7 c1)
  exact h

set_option maxRecDepth 20000 in
theorem theta3_lift : Lifts theta3 Flat.theta3 := by
  have h := movi_lifts r2 31
  have h := h.comp (xor5_lifts r3 Arm32.Amu1 Arm32.Agu0 Arm32.Asu1 Arm32.Aku0 Arm32.Abu0)
  have h := h.comp (xor5_lifts r7 Arm32.Ake0 Arm32.Abe1 Arm32.Ame1 Arm32.Age0 Arm32.Ase1)
  have h := h.comp (xorrol_lifts r6 r3 r7)
  have h := h.comp (strSp_lifts r6 mDa0)
  have h := h.comp (xor5_lifts r6 Arm32.Amu0 Arm32.Agu1 Arm32.Asu0 Arm32.Aku1 Arm32.Abu1)
  have h := h.comp (xor5_lifts r5 Arm32.Ake1 Arm32.Abe0 Arm32.Ame0 Arm32.Age1 Arm32.Ase0)
  have h := h.comp (xorh_lifts r8 r6 r5)
  have h := h.comp (mov_lifts lr r5)
  have h := h.comp (strSp_lifts r1 mDa1)
  have h := h.comp (xor5_lifts r5 Arm32.Asi0 Arm32.Aki0 Arm32.Abi1 Arm32.Ami1 Arm32.Agi1)
  have h := h.comp (xorrolR2_lifts r5 r6)
  have h := h.comp (strSp_lifts r6 mDo0)
  have h := h.comp (xor5_lifts r4 Arm32.Asi1 Arm32.Aki1 Arm32.Abi0 Arm32.Ami0 Arm32.Agi0)
  have h := h.comp (eor_lifts r3 r3 r4)
  have h := h.comp (strSp_lifts r3 mDo1)
  have h := h.comp (xor5_lifts r3 Arm32.Aba0 Arm32.Ama0 Arm32.Aga1 Arm32.Asa1 Arm32.Aka0)
  have h := h.comp (xorrolR2_lifts r3 r4)
  have h := h.comp (mov_lifts r10 r4)
  have h := h.comp (xor5_lifts r6 Arm32.Aba1 Arm32.Ama1 Arm32.Aga0 Arm32.Asa0 Arm32.Aka1)
  have h := h.comp (xorh_lifts r11 r6 r5)
  have h := h.comp (xor5_lifts r4 Arm32.Ago1 Arm32.Aso0 Arm32.Ako0 Arm32.Abo0 Arm32.Amo1)
  have h := h.comp (mov_lifts r1 lr)
  have h := h.comp (xorrol_lifts r5 r1 r4)
  have h := h.comp (strSp_lifts r5 mDi0)
  have h := h.comp (xor5_lifts r5 Arm32.Ago0 Arm32.Aso1 Arm32.Ako1 Arm32.Abo1 Arm32.Amo0)
  have h := h.comp (eor_lifts r7 r7 r5)
  have h := h.comp (xorrolR2_lifts r5 r6)
  have h := h.comp (mov_lifts r12 r6)
  have h := h.comp (eor_lifts r4 r4 r3)
  have h := h.comp (mov_lifts lr r4)
  have h := h.comp (mov_lifts r2 r7)
  have h := h.comp (ldrSp_lifts r1 mDo0)
  have h := h.comp (mov_lifts r9 r1)
  exact h

set_option maxRecDepth 20000 in
theorem rest3_lift (c0 c1 : Word) : Lifts (rest3 c0 c1) (Flat.rest3 c0 c1) := by
  have h := thetaRhoPiChi_lifts r5 Arm32.Aga0 r8 2 r6 Arm32.Age0 r11 23 r7 Arm32.Agi0 r2 31 r3 Arm32.Ago0 r9 14 r4 Arm32.Agu0 r12 10
  have h := h.comp (thetaRhoPiChi_lifts r7 Arm32.Aka1 r8 9 r3 Arm32.Ake1 r10 0 r4 Arm32.Aki1 r2 3 r5 Arm32.Ako1 r9 12 r6 Arm32.Aku1 lr 4)
  have h := h.comp (ldrSp_lifts r1 mDa0)
  have h := h.comp (mov_lifts r8 r1)
  have h := h.comp (thetaRhoPiChi_lifts r4 Arm32.Ama0 r8 18 r5 Arm32.Ame0 r10 5 r6 Arm32.Ami0 r2 8 r7 Arm32.Amo0 r9 28 r3 Arm32.Amu0 lr 14)
  have h := h.comp (thetaRhoPiChi_lifts r6 Arm32.Asa1 r8 20 r7 Arm32.Ase1 r11 1 r3 Arm32.Asi1 r2 31 r4 Arm32.Aso1 r9 27 r5 Arm32.Asu1 r12 19)
  have h := h.comp (ldrSp_lifts r1 mDo1)
  have h := h.comp (mov_lifts r9 r1)
  have h := h.comp (thetaRhoPiChiIota_lifts Arm32.Aba0 r8 Arm32.Abe0 r10 22 Arm32.Abi0 r2 22 Arm32.Abo0 r9 11 Arm32.Abu0 r12 7 c0)
  have h := h.comp (ldrSp_lifts r2 mDi0)
  have h := h.comp (thetaRhoPiChi_lifts r5 Arm32.Aga1 r8 1 r6 Arm32.Age1 r10 22 r7 Arm32.Agi1 r2 30 r3 Arm32.Ago1 r9 14 r4 Arm32.Agu1 lr 10)
  have h := h.comp (thetaRhoPiChi_lifts r7 Arm32.Aka0 r8 9 r3 Arm32.Ake0 r11 1 r4 Arm32.Aki0 r2 3 r5 Arm32.Ako0 r9 13 r6 Arm32.Aku0 r12 4)
  have h := h.comp (ldrSp_lifts r1 mDa1)
  have h := h.comp (mov_lifts r8 r1)
  have h := h.comp (thetaRhoPiChi_lifts r4 Arm32.Ama1 r8 18 r5 Arm32.Ame1 r11 5 r6 Arm32.Ami1 r2 7 r7 Arm32.Amo1 r9 28 r3 Arm32.Amu1 r12 13)
  have h := h.comp (thetaRhoPiChi_lifts r6 Arm32.Asa0 r8 21 r7 Arm32.Ase0 r10 1 r3 Arm32.Asi0 r2 31 r4 Arm32.Aso0 r9 28 r5 Arm32.Asu0 lr 20)
  have h := h.comp (ldrSp_lifts r1 mDo0)
  have h := h.comp (mov_lifts r9 r1)
  have h := h.comp (thetaRhoPiChiIota_lifts Arm32.Aba1 r8 Arm32.Abe1 r11 22 Arm32.Abi1 r2 21 Arm32.Abo1 r9 10 Arm32.Abu1 lr 7 c1)
  exact h

set_option maxRecDepth 20000 in
theorem flatTheta0 (m : Arm32.M) : (Flat.theta0 m).A = m.A ∧ Arm32.effectOf (Flat.theta0 m) = Inplace32.effect0 (Inplace32.load m.A) ∧
    (Flat.theta0 m).r 8 = (Flat.theta0 m).s 1 ∧ (Flat.theta0 m).r 9 = (Flat.theta0 m).s 2 := by
  have h : (Flat.theta0 m).s 3 = (Inplace32.effect0 (Inplace32.load m.A)).Do1 := by
    unfold Flat.theta0
    exact BitVec.xor_comm _ _
  rw [Arm32.effectOf, h]
  unfold Flat.theta0
  exact ⟨rfl, rfl, rfl, rfl⟩

set_option maxRecDepth 20000 in
theorem flatRest0 (c0 c1 : Word) (m : Arm32.M) (h8 : m.r 8 = m.s 1) (h9 : m.r 9 = m.s 2) :
    (Flat.rest0 c0 c1 m).A = Inplace32.store (Inplace32.rest0 (Arm32.effectOf m) c0 c1 (Inplace32.load m.A)) := by
  rw [Arm32.reset m h8 h9]
  generalize m.r = r
  generalize m.A = A
  generalize m.s = s
  unfold Flat.rest0 Flat.thetaRhoPiChi Flat.thetaRhoPiChiIota Flat.rorByIf
  funext i
  fin_cases i <;> rfl

theorem round0_lift (c0 c1 : Word) (m : Arm32.M) (q : Nat) (ok : Bool) : ∃ m' : Arm32.M,
    round0 c0 c1 (lift m 0 q ok) = lift m' 0 q ok ∧ m'.A = Inplace32.store (Inplace32.round0 c0 c1 (Inplace32.load m.A)) := by
  obtain ⟨hA, hD, h8, h9⟩ := flatTheta0 m
  refine ⟨Flat.rest0 c0 c1 (Flat.theta0 m), ?_, ?_⟩
  · rw [round0, theta0_lift, rest0_lift]
  · rw [flatRest0 _ _ _ h8 h9, hD, hA, Inplace32.round0]

set_option maxRecDepth 20000 in
theorem flatTheta1 (m : Arm32.M) : (Flat.theta1 m).A = m.A ∧ Arm32.effectOf (Flat.theta1 m) = Inplace32.effect1 (Inplace32.load m.A) ∧
    (Flat.theta1 m).r 8 = (Flat.theta1 m).s 1 ∧ (Flat.theta1 m).r 9 = (Flat.theta1 m).s 2 := by
  have h : (Flat.theta1 m).s 3 = (Inplace32.effect1 (Inplace32.load m.A)).Do1 := by
    unfold Flat.theta1
    exact BitVec.xor_comm _ _
  rw [Arm32.effectOf, h]
  unfold Flat.theta1
  exact ⟨rfl, rfl, rfl, rfl⟩

set_option maxRecDepth 20000 in
theorem flatRest1 (c0 c1 : Word) (m : Arm32.M) (h8 : m.r 8 = m.s 1) (h9 : m.r 9 = m.s 2) :
    (Flat.rest1 c0 c1 m).A = Inplace32.store (Inplace32.rest1 (Arm32.effectOf m) c0 c1 (Inplace32.load m.A)) := by
  rw [Arm32.reset m h8 h9]
  generalize m.r = r
  generalize m.A = A
  generalize m.s = s
  unfold Flat.rest1 Flat.thetaRhoPiChi Flat.thetaRhoPiChiIota Flat.rorByIf
  funext i
  fin_cases i <;> rfl

theorem round1_lift (c0 c1 : Word) (m : Arm32.M) (q : Nat) (ok : Bool) : ∃ m' : Arm32.M,
    round1 c0 c1 (lift m 0 q ok) = lift m' 0 q ok ∧ m'.A = Inplace32.store (Inplace32.round1 c0 c1 (Inplace32.load m.A)) := by
  obtain ⟨hA, hD, h8, h9⟩ := flatTheta1 m
  refine ⟨Flat.rest1 c0 c1 (Flat.theta1 m), ?_, ?_⟩
  · rw [round1, theta1_lift, rest1_lift]
  · rw [flatRest1 _ _ _ h8 h9, hD, hA, Inplace32.round1]

set_option maxRecDepth 20000 in
theorem flatTheta2 (m : Arm32.M) : (Flat.theta2 m).A = m.A ∧ Arm32.effectOf (Flat.theta2 m) = Inplace32.effect2 (Inplace32.load m.A) ∧
    (Flat.theta2 m).r 8 = (Flat.theta2 m).s 1 ∧ (Flat.theta2 m).r 9 = (Flat.theta2 m).s 2 := by
  have h : (Flat.theta2 m).s 3 = (Inplace32.effect2 (Inplace32.load m.A)).Do1 := by
    unfold Flat.theta2
    exact BitVec.xor_comm _ _
  rw [Arm32.effectOf, h]
  unfold Flat.theta2
  exact ⟨rfl, rfl, rfl, rfl⟩

set_option maxRecDepth 20000 in
theorem flatRest2 (c0 c1 : Word) (m : Arm32.M) (h8 : m.r 8 = m.s 1) (h9 : m.r 9 = m.s 2) :
    (Flat.rest2 c0 c1 m).A = Inplace32.store (Inplace32.rest2 (Arm32.effectOf m) c0 c1 (Inplace32.load m.A)) := by
  rw [Arm32.reset m h8 h9]
  generalize m.r = r
  generalize m.A = A
  generalize m.s = s
  unfold Flat.rest2 Flat.thetaRhoPiChi Flat.thetaRhoPiChiIota Flat.rorByIf
  funext i
  fin_cases i <;> rfl

theorem round2_lift (c0 c1 : Word) (m : Arm32.M) (q : Nat) (ok : Bool) : ∃ m' : Arm32.M,
    round2 c0 c1 (lift m 0 q ok) = lift m' 0 q ok ∧ m'.A = Inplace32.store (Inplace32.round2 c0 c1 (Inplace32.load m.A)) := by
  obtain ⟨hA, hD, h8, h9⟩ := flatTheta2 m
  refine ⟨Flat.rest2 c0 c1 (Flat.theta2 m), ?_, ?_⟩
  · rw [round2, theta2_lift, rest2_lift]
  · rw [flatRest2 _ _ _ h8 h9, hD, hA, Inplace32.round2]

set_option maxRecDepth 20000 in
theorem flatTheta3 (m : Arm32.M) : (Flat.theta3 m).A = m.A ∧ Arm32.effectOf (Flat.theta3 m) = Inplace32.effect3 (Inplace32.load m.A) ∧
    (Flat.theta3 m).r 8 = (Flat.theta3 m).s 1 ∧ (Flat.theta3 m).r 9 = (Flat.theta3 m).s 2 := by
  have h : (Flat.theta3 m).s 3 = (Inplace32.effect3 (Inplace32.load m.A)).Do1 := by
    unfold Flat.theta3
    exact BitVec.xor_comm _ _
  rw [Arm32.effectOf, h]
  unfold Flat.theta3
  exact ⟨rfl, rfl, rfl, rfl⟩

set_option maxRecDepth 20000 in
theorem flatRest3 (c0 c1 : Word) (m : Arm32.M) (h8 : m.r 8 = m.s 1) (h9 : m.r 9 = m.s 2) :
    (Flat.rest3 c0 c1 m).A = Inplace32.store (Inplace32.rest3 (Arm32.effectOf m) c0 c1 (Inplace32.load m.A)) := by
  rw [Arm32.reset m h8 h9]
  generalize m.r = r
  generalize m.A = A
  generalize m.s = s
  unfold Flat.rest3 Flat.thetaRhoPiChi Flat.thetaRhoPiChiIota Flat.rorByIf
  funext i
  fin_cases i <;> rfl

theorem round3_lift (c0 c1 : Word) (m : Arm32.M) (q : Nat) (ok : Bool) : ∃ m' : Arm32.M,
    round3 c0 c1 (lift m 0 q ok) = lift m' 0 q ok ∧ m'.A = Inplace32.store (Inplace32.round3 c0 c1 (Inplace32.load m.A)) := by
  obtain ⟨hA, hD, h8, h9⟩ := flatTheta3 m
  refine ⟨Flat.rest3 c0 c1 (Flat.theta3 m), ?_, ?_⟩
  · rw [round3, theta3_lift, rest3_lift]
  · rw [flatRest3 _ _ _ h8 h9, hD, hA, Inplace32.round3]

end KeccakP1600.Arm6
