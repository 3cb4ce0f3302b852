import Verif.Model.KeccakArmv6m

/-!
# Keccak-p[1600] in 32-bit ARM assembly, with a second state on the stack: ARMv6-M

Models the permutations of `lib/low/KeccakP-1600/ARM/KeccakP-1600-u1-32bi-armv6m-le-gcc.s` ("s" below) and
`KeccakP-1600-u2-32bi-armv6m-le-gcc.s` ("z" below), of which the `armcc` files are the same programs in the syntax of another
assembler.  Each round reads one state and writes another one; one of the two is on the stack, below the five words `mDo0` to
`mRC`.  The functions on bytes (s:33-149, 308-1114 and z:33-149, 382-1190) are, instruction for instruction, those of
`KeccakP-1600-inplace-32bi-armv6m-le-gcc.s`, which `Model/KeccakArmv6m.lean` models: `Arm6.access`.

The conventions are those of `Model/KeccakArmv6m.lean`; besides,

* a pointer to a state is either in the state of the caller or on the stack, with an offset in words; adding to it is modulo
  2^32, and `ok` becomes false when a word outside of the two states is accessed through such a pointer;
* the pointer to the round constants is a word, the offset in bytes from `KeccakP1600_Permute_RoundConstants24`; it is stored
  on the stack and read back as the program does, and `ok` becomes false when it is used outside of the table;
* the registers `r4` to `r12` and `lr` are saved and restored on the stack above the words modelled here; this is not
  modelled.
-/

namespace KeccakP1600

namespace Arm6U

open XoodooArm (sub32 add32)
open Arm32 (set r1 r2 r3 r4 r5 r6 r7 r8 r9 r10 r11 r12 lr)
open Arm6 (Aba0 Aba1 Abe0 Abe1 Abi0 Abi1 Abo0 Abo1 Abu0 Abu1 Aga0 Aga1 Age0 Age1 Agi0 Agi1 Ago0 Ago1 Agu0 Agu1 Aka0 Aka1 Ake0
  Ake1 Aki0 Aki1 Ako0 Ako1 Aku0 Aku1 Ama0 Ama1 Ame0 Ame1 Ami0 Ami1 Amo0 Amo1 Amu0 Amu1 Asa0 Asa1 Ase0 Ase1 Asi0 Asi1 Aso0 Aso1
  Asu0 Asu1)

/-- A pointer to a state: whether it is on the stack, and the offset in words from `sp` or from the state of the caller. -/
structure Ptr where
  stk : Bool
  off : Nat

/-- The registers, the words of the state of the caller, the words at `[sp, #4*i]`, the registers `r0`, `r5` and `r7` when
they contain pointers, and whether all accesses were inside the states and the table. -/
structure M where
  r : Nat → Word
  A : Words
  s : Nat → Word
  p0 : Ptr
  p5 : Ptr
  p7 : Ptr
  ok : Bool

/-- s:204, z:204. -/ abbrev mEs : Nat := 0
/-- s:205, z:205. -/ abbrev mD : Nat := 25 * 2
/-- s:206, z:206. -/ abbrev mDo0 : Nat := mD + 0
/-- s:207, z:207. -/ abbrev mDo1 : Nat := mD + 1
/-- s:208, z:208. -/ abbrev mDu0 : Nat := mD + 2
/-- s:209, z:209. -/ abbrev mDu1 : Nat := mD + 3
/-- s:210, z:210. -/ abbrev mRC : Nat := mD + 4

/-- The instruction `ldr d, [p, #4*x]`. -/
def ldr (d : Nat) (p : Ptr) (x : Nat) (m : M) : M :=
  { m with r := set m.r d (if p.stk then m.s (p.off + x) else m.A (Fin.ofNat 50 (p.off + x))),
           ok := decide (p.off + x < 50) && m.ok }

/-- The instruction `str d, [p, #4*x]`. -/
def str (d : Nat) (p : Ptr) (x : Nat) (m : M) : M :=
  { m with A := if p.stk then m.A else put m.A (Fin.ofNat 50 (p.off + x)) (m.r d),
           s := if p.stk then set m.s (p.off + x) (m.r d) else m.s,
           ok := decide (p.off + x < 50) && m.ok }

/-- The instruction `ldr d, [sp, #4*i]`. -/
def ldrSp (d i : Nat) (m : M) : M := { m with r := set m.r d (m.s i) }

/-- The instruction `str d, [sp, #4*i]`. -/
def strSp (d i : Nat) (m : M) : M := { m with s := set m.s i (m.r d) }

/-- The instruction `ldr d, [r1, #off]`, with the pointer to the round constants in `r1`. -/
def ldrRc (d off : Nat) (m : M) : M :=
  { m with r := set m.r d ((Arm6.rc ((m.r r1).toNat + off)).getD 0), ok := (Arm6.rc ((m.r r1).toNat + off)).isSome && m.ok }

/-- The instructions `mov d, n` and `movs d, n`. -/
def mov (d n : Nat) (m : M) : M := { m with r := set m.r d (m.r n) }

/-- The instruction `movs d, #i`. -/
def movi (d i : Nat) (m : M) : M := { m with r := set m.r d (BitVec.ofNat 32 i) }

/-- The instruction `eors d, n, k`. -/
def eor (d n k : Nat) (m : M) : M := { m with r := set m.r d (m.r n ^^^ m.r k) }

/-- The instruction `bics d, n, k`. -/
def bic (d n k : Nat) (m : M) : M := { m with r := set m.r d (m.r n &&& ~~~ m.r k) }

/-- The instruction `rors d, k`: by the lowest byte of the register `k`. -/
def rors (d k : Nat) (m : M) : M := { m with r := set m.r d ((m.r d).rotateRight ((m.r k).toNat % 256)) }

/-- The instruction `adds r1, r1, #i`. -/
def addR1 (i : Nat) (m : M) : M := { m with r := set m.r r1 (m.r r1 + BitVec.ofNat 32 i) }

/-- The instruction `adds r0, r0, #4*i`. -/
def addR0 (i : Nat) (m : M) : M := { m with p0 := ⟨m.p0.stk, add32 m.p0.off i⟩ }

/-- The instruction `subs r0, r0, #4*i`. -/
def subR0 (i : Nat) (m : M) : M := { m with p0 := ⟨m.p0.stk, sub32 m.p0.off i⟩ }

/-- The instruction `adds r7, r7, #4*i`. -/
def addR7 (i : Nat) (m : M) : M := { m with p7 := ⟨m.p7.stk, add32 m.p7.off i⟩ }

/-- The instruction `subs r7, r7, #4*i`. -/
def subR7 (i : Nat) (m : M) : M := { m with p7 := ⟨m.p7.stk, sub32 m.p7.off i⟩ }

/-- `ldm r0!, {r1-r5}` and `stm r7!, {r1-r5}` (s:1145-1146, z:1219-1220). -/
def copy5 (m : M) : M :=
  let m := ldr r1 m.p0 0 m
  let m := ldr r2 m.p0 1 m
  let m := ldr r3 m.p0 2 m
  let m := ldr r4 m.p0 3 m
  let m := ldr r5 m.p0 4 m
  let m := addR0 5 m
  let m := str r1 m.p7 0 m
  let m := str r2 m.p7 1 m
  let m := str r3 m.p7 2 m
  let m := str r4 m.p7 3 m
  let m := str r5 m.p7 4 m
  addR7 5 m

/-- The ten pairs of `ldm` and `stm` (s:1145-1168, z:1219-1238). -/
def copy (m : M) : M := copy5 (copy5 (copy5 (copy5 (copy5 (copy5 (copy5 (copy5 (copy5 (copy5 m)))))))))

/-- `te0m` (s:228-232, z:252-256). -/
def te0m (oD rCp0 rCn1 : Nat) (m : M) : M :=
  let m := rors rCn1 r4 m
  let m := eor rCn1 rCn1 rCp0 m
  strSp rCn1 oD m

/-- `te1m` (s:234-237, z:258-261). -/
def te1m (oD rCp1 rCn0 : Nat) (m : M) : M :=
  let m := eor rCn0 rCn0 rCp1 m
  strSp rCn0 oD m

/-- `te0r` (s:239-243, z:263-267). -/
def te0r (rD rCp0 rCn1 : Nat) (m : M) : M :=
  let m := rors rCn1 r4 m
  let m := eor rCn1 rCn1 rCp0 m
  mov rD rCn1 m

/-- `te1r` (s:245-248, z:269-272). -/
def te1r (rD rCp1 rCn0 : Nat) (m : M) : M :=
  let m := eor rCn0 rCn0 rCp1 m
  mov rD rCn0 m

/-- The lines of `trp1` that put the effect of theta into `r6` (s:252-256, z:276-280). -/
def ldrD (orD fD : Nat) (m : M) : M := if fD ≠ 0 then mov r6 orD m else ldrSp r6 orD m

/-- The lines of `trp1` that rotate (s:258-261, z:282-285). -/
def rot (b rot : Nat) (m : M) : M := if rot ≠ 0 then rors b r6 (movi r6 (32 - rot) m) else m

/-- The lines of `chio1` for iota (s:286-290, z:300-304). -/
def addRc (ax2 iota : Nat) (m : M) : M :=
  if iota ≠ 0xFF then
    let m := ldrSp r1 mRC m
    let m := ldrRc r4 iota m
    eor ax2 ax2 r4 m
  else m

/-- The lines of `chio1` before the store, when `useax2` is not zero (s:284-290, z:298-304). -/
def chi1 (ax0 ax1 ax2 iota : Nat) (m : M) : M :=
  let m := bic ax2 ax2 ax1 m
  let m := eor ax2 ax2 ax0 m
  addRc ax2 iota m

/-- The lines of `chio1` before the store, when `useax2` is zero (s:293-295, z:307-309). -/
def chi0 (ax0 ax1 ax2 : Nat) (m : M) : M :=
  let m := mov r6 ax2 m
  let m := bic r6 r6 ax1 m
  eor r6 r6 ax0 m

/-- `KeccakP1600_Permute_RoundConstants12` (s:1217, z:1284), 12 constants after the beginning of the table.  The table
(s:1200-1234, z:1270-1298) is `Arm6.roundConstants`. -/
def roundConstants12 : Nat := 96

/-- `KeccakP1600_Permute_RoundConstants0` (s:1233, z:1297). -/
def roundConstants0 : Nat := 192

/-- `adr r1, ...`. -/
def adrR1 (t : Nat) (m : M) : M := { m with r := set m.r r1 (BitVec.ofNat 32 t) }

/-- The beginning of `KeccakP1600_Permute_Nrounds` (s:1126-1129, z:1200-1203): `r1` becomes the pointer to the first constant. -/
def nroundsR1 (nrounds : Word) (m : M) : M :=
  { m with r := set m.r r1 (BitVec.ofNat 32 roundConstants0 - nrounds <<< 3) }

/-! ## One round in the loop -/

namespace U1

/-- `movs r5, #_ma0; adds r5, r5, r0` (s:1257-1258). -/
def setR5 (m : M) : M := { m with p5 := ⟨m.p0.stk, add32 Ama0 m.p0.off⟩ }

/-- `xor5` (s:216-226). -/
def xor5 (result b g k mm s : Nat) (m : M) : M :=
  let m := ldr result m.p0 b m
  let m := ldr r6 m.p0 g m
  let m := eor result result r6 m
  let m := ldr r6 m.p0 k m
  let m := eor result result r6 m
  let m := ldr r6 m.p5 (mm - Ama0) m
  let m := eor result result r6 m
  let m := ldr r6 m.p5 (s - Ama0) m
  eor result result r6 m

/-- `trp1` (s:250-262). -/
def trp1 (b ofS orD fD rt : Nat) (m : M) : M :=
  let m := ldr b m.p0 ofS m
  let m := ldrD orD fD m
  let m := eor b b r6 m
  rot b rt m

/-- `trp5e` (s:264-271). -/
def trp5e (oS0 orD0 fD0 oR0 oS1 orD1 fD1 oR1 oS2 orD2 fD2 oR2 oS3 orD3 fD3 oR3 oS4 orD4 fD4 oR4 : Nat) (m : M) : M :=
  let m := trp1 r1 oS0 orD0 fD0 oR0 m
  let m := trp1 r2 oS1 orD1 fD1 oR1 m
  let m := trp1 r3 oS2 orD2 fD2 oR2 m
  let m := addR0 Ama0 m
  let m := trp1 r4 (oS3 - Ama0) orD3 fD3 oR3 m
  trp1 r5 (oS4 - Ama0) orD4 fD4 oR4 m

/-- `trp5o` (s:273-280). -/
def trp5o (oS0 orD0 fD0 oR0 oS1 orD1 fD1 oR1 oS2 orD2 fD2 oR2 oS3 orD3 fD3 oR3 oS4 orD4 fD4 oR4 : Nat) (m : M) : M :=
  let m := trp1 r4 (oS3 - Ama0) orD3 fD3 oR3 m
  let m := trp1 r5 (oS4 - Ama0) orD4 fD4 oR4 m
  let m := subR0 Ama0 m
  let m := trp1 r1 oS0 orD0 fD0 oR0 m
  let m := trp1 r2 oS1 orD1 fD1 oR1 m
  trp1 r3 oS2 orD2 fD2 oR2 m

/-- `chio1` (s:282-298). -/
def chio1 (oOut ax0 ax1 ax2 iota useax2 : Nat) (m : M) : M :=
  if useax2 ≠ 0 then
    let m := chi1 ax0 ax1 ax2 iota m
    str ax2 m.p7 oOut m
  else
    let m := chi0 ax0 ax1 ax2 m
    str r6 m.p7 oOut m

/-- `chio5` (s:300-306). -/
def chio5 (oOut iota : Nat) (m : M) : M :=
  let m := chio1 (oOut + 8) r5 r1 r2 0xFF 0 m
  let m := chio1 (oOut + 6) r4 r5 r1 0xFF 0 m
  let m := chio1 (oOut + 4) r3 r4 r5 0xFF 1 m
  let m := chio1 (oOut + 2) r2 r3 r4 0xFF 1 m
  chio1 (oOut + 0) r1 r2 r3 iota 1 m

/-- The effect of theta (s:1256-1288). -/
def theta (m : M) : M :=
  let m := movi r4 31 m
  let m := setR5 m
  let m := xor5 r1 Abe1 Age1 Ake1 Ame1 Ase1 m
  let m := xor5 r2 Abu0 Agu0 Aku0 Amu0 Asu0 m
  let m := mov r6 r1 m
  let m := te0r r8 r2 r6 m
  let m := xor5 r3 Abi1 Agi1 Aki1 Ami1 Asi1 m
  let m := te1m mDo1 r3 r2 m
  let m := xor5 r2 Aba0 Aga0 Aka0 Ama0 Asa0 m
  let m := te0r r10 r2 r3 m
  let m := xor5 r3 Abo1 Ago1 Ako1 Amo1 Aso1 m
  let m := te1m mDu1 r3 r2 m
  let m := xor5 r2 Abe0 Age0 Ake0 Ame0 Ase0 m
  let m := te0r r12 r2 r3 m
  let m := xor5 r3 Abu1 Agu1 Aku1 Amu1 Asu1 m
  let m := te1r r9 r3 r2 m
  let m := xor5 r2 Abi0 Agi0 Aki0 Ami0 Asi0 m
  let m := te0m mDo0 r2 r3 m
  let m := xor5 r3 Aba1 Aga1 Aka1 Ama1 Asa1 m
  let m := te1r r11 r3 r2 m
  let m := xor5 r2 Abo0 Ago0 Ako0 Amo0 Aso0 m
  let m := te0m mDu0 r2 r3 m
  te1r lr r1 r2 m

/-- The rest of the round (s:1290-1315). -/
def rest (m : M) : M :=
  let m := addR7 Ama0 m
  let m := trp5e Abi0 r12 1 31 Ago1 mDo1 0 28 Aku1 mDu1 0 20 Ama1 r9 1 21 Ase0 r10 1 1 m
  let m := chio5 (Asa0 - Ama0) 0xFF m
  let m := trp5o Abi1 lr 1 31 Ago0 mDo0 0 27 Aku0 mDu0 0 19 Ama0 r8 1 20 Ase1 r11 1 1 m
  let m := chio5 (Asa1 - Ama0) 0xFF m
  let m := trp5e Abu1 mDu1 0 14 Aga0 r8 1 18 Ake0 r10 1 5 Ami1 lr 1 8 Aso0 mDo0 0 28 m
  let m := chio5 (Ama0 - Ama0) 0xFF m
  let m := trp5o Abu0 mDu0 0 13 Aga1 r9 1 18 Ake1 r11 1 5 Ami0 r12 1 7 Aso1 mDo1 0 28 m
  let m := chio5 (Ama1 - Ama0) 0xFF m
  let m := subR7 Ama0 m
  let m := trp5e Abe1 r11 1 1 Agi0 r12 1 3 Ako1 mDo1 0 13 Amu0 mDu0 0 4 Asa0 r8 1 9 m
  let m := chio5 Aka0 0xFF m
  let m := trp5o Abe0 r10 1 0 Agi1 lr 1 3 Ako0 mDo0 0 12 Amu1 mDu1 0 4 Asa1 r9 1 9 m
  let m := chio5 Aka1 0xFF m
  let m := trp5e Abo0 mDo0 0 14 Agu0 mDu0 0 10 Aka1 r9 1 2 Ame1 r11 1 23 Asi1 lr 1 31 m
  let m := chio5 Aga0 0xFF m
  let m := trp5o Abo1 mDo1 0 14 Agu1 mDu1 0 10 Aka0 r8 1 1 Ame0 r10 1 22 Asi0 r12 1 30 m
  let m := chio5 Aga1 0xFF m
  let m := trp5e Aba0 r8 1 0 Age0 r10 1 22 Aki1 lr 1 22 Amo1 mDo1 0 11 Asu0 mDu0 0 7 m
  let m := chio5 Aba0 0 m
  let m := trp5o Aba1 r9 1 0 Age1 r11 1 22 Aki0 r12 1 21 Amo0 mDo0 0 10 Asu1 mDu1 0 7 m
  chio5 Aba1 4 m

/-- The round, from `KeccakP1600_Permute_RoundLoop1` (s:1253-1315). -/
def round (m : M) : M := rest (theta m)

/-- `mov r6, r0; mov r0, r7; mov r7, r6` (s:1321-1323). -/
def swap (m : M) : M := { m with p0 := m.p7, p7 := m.p0 }

/-- The loop from `KeccakP1600_Permute_RoundLoop1` (s:1253-1325); `KeccakP1600_Permute_RoundLoop` (s:1252) comes before it in
the next iteration.  At the end, `mov r0, r7` (s:1326). -/
def permuteLoop1 : Nat → M → Option M
  | 0, _ => none
  | fuel + 1, m =>
    let m := round m
    let m := addR1 8 m
    let m := ldrRc r6 0 m
    if m.ok = false then none
    else if m.r r6 = 0xFF then some { m with p0 := m.p7 }
    else permuteLoop1 fuel (strSp r1 mRC (swap m))

/-- `KeccakP1600_Permute` (s:1241-1334), `r1` being the pointer to the constants.  The fuel is more than the size of the
table. -/
def permute (m : M) : Option M :=
  let m := { m with p7 := ⟨true, mEs⟩ }
  let m := strSp r1 mRC m
  permuteLoop1 (2 ^ 32) m

/-- `KeccakP1600_Permute_NroundsOdd` (s:1133-1172). -/
def nroundsOdd (m : M) : Option M :=
  let m := strSp r1 mRC m
  let m := { m with p7 := ⟨true, mEs⟩ }
  let m := copy m
  let m := { m with p7 := m.p0 }
  let m := subR7 (25 * 2) m
  let m := { m with p0 := ⟨true, mEs⟩ }
  permuteLoop1 (2 ^ 32) m

/-- `KeccakP1600_Permute_Nrounds` (s:1125-1132). -/
def permuteNrounds (m : M) (nrounds : Nat) : Option M :=
  let m := nroundsR1 (BitVec.ofNat 32 nrounds) m
  if BitVec.ofNat 32 nrounds <<< 31 ≠ (0 : Word) then nroundsOdd m else permute m

/-- `KeccakP1600_Permute_12rounds` (s:1182-1184). -/
def permute12 (m : M) : Option M := permute (adrR1 roundConstants12 m)

/-- `KeccakP1600_Permute_24rounds` (s:1194-1196). -/
def permute24 (m : M) : Option M := permute (adrR1 0 m)

end U1

/-! ## Two rounds in the loop -/

namespace U2

/-- `load` (z:216-226). -/
def load (reg stkIn offset : Nat) (m : M) : M :=
  if stkIn = 1 then ldr reg ⟨true, 0⟩ offset m
  else if Ama0 ≤ offset then ldr reg m.p7 (offset - Ama0) m
  else ldr reg m.p0 offset m

/-- `store` (z:228-238). -/
def store (reg stkIn offset : Nat) (m : M) : M :=
  if stkIn = 0 then str reg ⟨true, 0⟩ offset m
  else if Ama0 ≤ offset then str reg m.p7 (offset - Ama0) m
  else str reg m.p0 offset m

/-- `xor5` (z:240-250). -/
def xor5 (stkIn result b g k mm s : Nat) (m : M) : M :=
  let m := load result stkIn b m
  let m := load r6 stkIn g m
  let m := eor result result r6 m
  let m := load r6 stkIn k m
  let m := eor result result r6 m
  let m := load r6 stkIn mm m
  let m := eor result result r6 m
  let m := load r6 stkIn s m
  eor result result r6 m

/-- `trp1` (z:274-286). -/
def trp1 (stkIn b ofS orD fD rt : Nat) (m : M) : M :=
  let m := load b stkIn ofS m
  let m := ldrD orD fD m
  let m := eor b b r6 m
  rot b rt m

/-- `trp5` (z:288-294). -/
def trp5 (stkIn oS0 orD0 fD0 oR0 oS1 orD1 fD1 oR1 oS2 orD2 fD2 oR2 oS3 orD3 fD3 oR3 oS4 orD4 fD4 oR4 : Nat) (m : M) : M :=
  let m := trp1 stkIn r1 oS0 orD0 fD0 oR0 m
  let m := trp1 stkIn r2 oS1 orD1 fD1 oR1 m
  let m := trp1 stkIn r3 oS2 orD2 fD2 oR2 m
  let m := trp1 stkIn r4 oS3 orD3 fD3 oR3 m
  trp1 stkIn r5 oS4 orD4 fD4 oR4 m

/-- `chio1` (z:296-312). -/
def chio1 (stkIn oOut ax0 ax1 ax2 iota useax2 : Nat) (m : M) : M :=
  if useax2 ≠ 0 then
    let m := chi1 ax0 ax1 ax2 iota m
    store ax2 stkIn oOut m
  else
    let m := chi0 ax0 ax1 ax2 m
    store r6 stkIn oOut m

/-- `chio5` (z:314-320). -/
def chio5 (stkIn oOut iota : Nat) (m : M) : M :=
  let m := chio1 stkIn (oOut + 8) r5 r1 r2 0xFF 0 m
  let m := chio1 stkIn (oOut + 6) r4 r5 r1 0xFF 0 m
  let m := chio1 stkIn (oOut + 4) r3 r4 r5 0xFF 1 m
  let m := chio1 stkIn (oOut + 2) r2 r3 r4 0xFF 1 m
  chio1 stkIn (oOut + 0) r1 r2 r3 iota 1 m

/-- `Kround`, the effect of theta (z:325-355). -/
def theta (stkIn : Nat) (m : M) : M :=
  let m := movi r4 31 m
  let m := xor5 stkIn r1 Abe1 Age1 Ake1 Ame1 Ase1 m
  let m := xor5 stkIn r2 Abu0 Agu0 Aku0 Amu0 Asu0 m
  let m := mov r6 r1 m
  let m := te0r r8 r2 r6 m
  let m := xor5 stkIn r3 Abi1 Agi1 Aki1 Ami1 Asi1 m
  let m := te1m mDo1 r3 r2 m
  let m := xor5 stkIn r2 Aba0 Aga0 Aka0 Ama0 Asa0 m
  let m := te0r r10 r2 r3 m
  let m := xor5 stkIn r3 Abo1 Ago1 Ako1 Amo1 Aso1 m
  let m := te1m mDu1 r3 r2 m
  let m := xor5 stkIn r2 Abe0 Age0 Ake0 Ame0 Ase0 m
  let m := te0r r12 r2 r3 m
  let m := xor5 stkIn r3 Abu1 Agu1 Aku1 Amu1 Asu1 m
  let m := te1r r9 r3 r2 m
  let m := xor5 stkIn r2 Abi0 Agi0 Aki0 Ami0 Asi0 m
  let m := te0m mDo0 r2 r3 m
  let m := xor5 stkIn r3 Aba1 Aga1 Aka1 Ama1 Asa1 m
  let m := te1r r11 r3 r2 m
  let m := xor5 stkIn r2 Abo0 Ago0 Ako0 Amo0 Aso0 m
  let m := te0m mDu0 r2 r3 m
  te1r lr r1 r2 m

/-- `Kround`, the rest (z:357-380). -/
def rest (stkIn iota : Nat) (m : M) : M :=
  let m := trp5 stkIn Abi0 r12 1 31 Ago1 mDo1 0 28 Aku1 mDu1 0 20 Ama1 r9 1 21 Ase0 r10 1 1 m
  let m := chio5 stkIn Asa0 0xFF m
  let m := trp5 stkIn Abi1 lr 1 31 Ago0 mDo0 0 27 Aku0 mDu0 0 19 Ama0 r8 1 20 Ase1 r11 1 1 m
  let m := chio5 stkIn Asa1 0xFF m
  let m := trp5 stkIn Abu1 mDu1 0 14 Aga0 r8 1 18 Ake0 r10 1 5 Ami1 lr 1 8 Aso0 mDo0 0 28 m
  let m := chio5 stkIn Ama0 0xFF m
  let m := trp5 stkIn Abu0 mDu0 0 13 Aga1 r9 1 18 Ake1 r11 1 5 Ami0 r12 1 7 Aso1 mDo1 0 28 m
  let m := chio5 stkIn Ama1 0xFF m
  let m := trp5 stkIn Abe1 r11 1 1 Agi0 r12 1 3 Ako1 mDo1 0 13 Amu0 mDu0 0 4 Asa0 r8 1 9 m
  let m := chio5 stkIn Aka0 0xFF m
  let m := trp5 stkIn Abe0 r10 1 0 Agi1 lr 1 3 Ako0 mDo0 0 12 Amu1 mDu1 0 4 Asa1 r9 1 9 m
  let m := chio5 stkIn Aka1 0xFF m
  let m := trp5 stkIn Abo0 mDo0 0 14 Agu0 mDu0 0 10 Aka1 r9 1 2 Ame1 r11 1 23 Asi1 lr 1 31 m
  let m := chio5 stkIn Aga0 0xFF m
  let m := trp5 stkIn Abo1 mDo1 0 14 Agu1 mDu1 0 10 Aka0 r8 1 1 Ame0 r10 1 22 Asi0 r12 1 30 m
  let m := chio5 stkIn Aga1 0xFF m
  let m := trp5 stkIn Aba0 r8 1 0 Age0 r10 1 22 Aki1 lr 1 22 Amo1 mDo1 0 11 Asu0 mDu0 0 7 m
  let m := chio5 stkIn Aba0 (iota + 0) m
  let m := trp5 stkIn Aba1 r9 1 0 Age1 r11 1 22 Aki0 r12 1 21 Amo0 mDo0 0 10 Asu1 mDu1 0 7 m
  chio5 stkIn Aba1 (iota + 4) m

/-- `Kround` (z:322-381). -/
def kround (stkIn iota : Nat) (m : M) : M := rest stkIn iota (theta stkIn m)

/-- The loop from `KeccakP1600_Permute_RoundOdd` (z:1319-1329); the lines from `KeccakP1600_Permute_RoundLoop` (z:1317-1318)
come before it in the next iteration. -/
def permuteLoopOdd : Nat → M → Option M
  | 0, _ => none
  | fuel + 1, m =>
    let m := kround 1 8 m
    let m := addR1 (2 * 8) m
    let m := ldrRc r6 0 m
    if m.ok = false then none
    else if m.r r6 = 0xFF then some m
    else permuteLoopOdd fuel (kround 0 0 (strSp r1 mRC m))

/-- `movs r7, #_ma0; adds r7, r7, r0` (z:1240-1241, 1314-1315). -/
def setR7 (m : M) : M := { m with p7 := ⟨m.p0.stk, add32 Ama0 m.p0.off⟩ }

/-- `KeccakP1600_Permute` (z:1305-1337), `r1` being the pointer to the constants.  The fuel is more than the size of the
table. -/
def permute (m : M) : Option M :=
  let m := setR7 m
  let m := strSp r1 mRC m
  permuteLoopOdd (2 ^ 32) (kround 0 0 m)

/-- `subs r1, r1, #8` (z:1216). -/
def subR1 (m : M) : M := { m with r := set m.r r1 (m.r r1 - 8) }

/-- `KeccakP1600_Permute_NroundsOdd` (z:1207-1242). -/
def nroundsOdd (m : M) : Option M :=
  let m := subR1 m
  let m := strSp r1 mRC m
  let m := { m with p7 := ⟨true, 0⟩ }
  let m := copy m
  let m := subR0 (25 * 2) m
  let m := setR7 m
  permuteLoopOdd (2 ^ 32) m

/-- `KeccakP1600_Permute_Nrounds` (z:1199-1206). -/
def permuteNrounds (m : M) (nrounds : Nat) : Option M :=
  let m := nroundsR1 (BitVec.ofNat 32 nrounds) m
  if BitVec.ofNat 32 nrounds <<< 31 ≠ (0 : Word) then nroundsOdd m else permute m

/-- `KeccakP1600_Permute_12rounds` (z:1252-1254). -/
def permute12 (m : M) : Option M := permute (adrR1 roundConstants12 m)

/-- `KeccakP1600_Permute_24rounds` (z:1264-1266). -/
def permute24 (m : M) : Option M := permute (adrR1 0 m)

end U2

end Arm6U

end KeccakP1600
