import Verif.Model.KeccakP1600Inplace32
import Verif.Model.XoodooArm

/-!
# Keccak-p[1600] in 32-bit ARM assembly, in place: ARMv7-M and ARMv7-A

Models `lib/low/KeccakP-1600/ARM/KeccakP-1600-inplace-32bi-armv7m-le-gcc.s` ("s" below) and
`KeccakP-1600-inplace-32bi-armv7a-le-gcc.s` ("a" below).  The `armcc` files are the same programs in the syntax of
another assembler.  The two programs have the same rounds and the same functions on bytes; they differ in the masks of
the bit interleaving, which are immediate values in the first and are held in registers in the second, so that the
functions below are given the two macros for bit interleaving.

* The registers are a function from the number of the register, `lr` is register 14.  A macro of the assembler is a
  function of the numbers of its registers and of the offsets in the state, here indices of words.
* The state is an array of 50 words.  In the permutation the pointer `r0` does not change.  In the functions on bytes it is
  an offset in bytes, a multiple of 8; a read or write outside of the state gives `none`.
* Other buffers are lists of bytes with an offset; a read or write outside of a buffer gives `none`, and output is
  appended to a list.  Words are little endian; buffers do not overlap.
* The lengths and counters have 32 bits; running out of fuel gives `none`.
* Pushing and popping the registers of the caller is not modelled.  The words kept on the stack by the permutation are a
  function from their index, and the 8 bytes of a lane on the stack are a list.
-/

namespace KeccakP1600

namespace Arm32

open XoodooArm (sub32 ldrb strb)

/-! ## The macros of the permutation -/

/-- The registers, the words of the state and the words at `[sp, #4*i]`. -/
structure M where
  r : Nat → Word
  A : Words
  s : Nat → Word

/-- A register, or a word on the stack, is written. -/
def set (g : Nat → Word) (d : Nat) (w : Word) : Nat → Word := fun q => if q = d then w else g q

/-- The register `r1`. -/
abbrev r1 : Nat := 1
/-- The register `r2`. -/
abbrev r2 : Nat := 2
/-- The register `r3`. -/
abbrev r3 : Nat := 3
/-- The register `r4`. -/
abbrev r4 : Nat := 4
/-- The register `r5`. -/
abbrev r5 : Nat := 5
/-- The register `r6`. -/
abbrev r6 : Nat := 6
/-- The register `r7`. -/
abbrev r7 : Nat := 7
/-- The register `r8`. -/
abbrev r8 : Nat := 8
/-- The register `r9`. -/
abbrev r9 : Nat := 9
/-- The register `r10`. -/
abbrev r10 : Nat := 10
/-- The register `r11`. -/
abbrev r11 : Nat := 11
/-- The register `r12`. -/
abbrev r12 : Nat := 12
/-- The register `lr`. -/
abbrev lr : Nat := 14

/-- s:135. -/ abbrev Aba0 : Fin 50 := 0
/-- s:136. -/ abbrev Aba1 : Fin 50 := 1
/-- s:137. -/ abbrev Abe0 : Fin 50 := 2
/-- s:138. -/ abbrev Abe1 : Fin 50 := 3
/-- s:139. -/ abbrev Abi0 : Fin 50 := 4
/-- s:140. -/ abbrev Abi1 : Fin 50 := 5
/-- s:141. -/ abbrev Abo0 : Fin 50 := 6
/-- s:142. -/ abbrev Abo1 : Fin 50 := 7
/-- s:143. -/ abbrev Abu0 : Fin 50 := 8
/-- s:144. -/ abbrev Abu1 : Fin 50 := 9
/-- s:145. -/ abbrev Aga0 : Fin 50 := 10
/-- s:146. -/ abbrev Aga1 : Fin 50 := 11
/-- s:147. -/ abbrev Age0 : Fin 50 := 12
/-- s:148. -/ abbrev Age1 : Fin 50 := 13
/-- s:149. -/ abbrev Agi0 : Fin 50 := 14
/-- s:150. -/ abbrev Agi1 : Fin 50 := 15
/-- s:151. -/ abbrev Ago0 : Fin 50 := 16
/-- s:152. -/ abbrev Ago1 : Fin 50 := 17
/-- s:153. -/ abbrev Agu0 : Fin 50 := 18
/-- s:154. -/ abbrev Agu1 : Fin 50 := 19
/-- s:155. -/ abbrev Aka0 : Fin 50 := 20
/-- s:156. -/ abbrev Aka1 : Fin 50 := 21
/-- s:157. -/ abbrev Ake0 : Fin 50 := 22
/-- s:158. -/ abbrev Ake1 : Fin 50 := 23
/-- s:159. -/ abbrev Aki0 : Fin 50 := 24
/-- s:160. -/ abbrev Aki1 : Fin 50 := 25
/-- s:161. -/ abbrev Ako0 : Fin 50 := 26
/-- s:162. -/ abbrev Ako1 : Fin 50 := 27
/-- s:163. -/ abbrev Aku0 : Fin 50 := 28
/-- s:164. -/ abbrev Aku1 : Fin 50 := 29
/-- s:165. -/ abbrev Ama0 : Fin 50 := 30
/-- s:166. -/ abbrev Ama1 : Fin 50 := 31
/-- s:167. -/ abbrev Ame0 : Fin 50 := 32
/-- s:168. -/ abbrev Ame1 : Fin 50 := 33
/-- s:169. -/ abbrev Ami0 : Fin 50 := 34
/-- s:170. -/ abbrev Ami1 : Fin 50 := 35
/-- s:171. -/ abbrev Amo0 : Fin 50 := 36
/-- s:172. -/ abbrev Amo1 : Fin 50 := 37
/-- s:173. -/ abbrev Amu0 : Fin 50 := 38
/-- s:174. -/ abbrev Amu1 : Fin 50 := 39
/-- s:175. -/ abbrev Asa0 : Fin 50 := 40
/-- s:176. -/ abbrev Asa1 : Fin 50 := 41
/-- s:177. -/ abbrev Ase0 : Fin 50 := 42
/-- s:178. -/ abbrev Ase1 : Fin 50 := 43
/-- s:179. -/ abbrev Asi0 : Fin 50 := 44
/-- s:180. -/ abbrev Asi1 : Fin 50 := 45
/-- s:181. -/ abbrev Aso0 : Fin 50 := 46
/-- s:182. -/ abbrev Aso1 : Fin 50 := 47
/-- s:183. -/ abbrev Asu0 : Fin 50 := 48
/-- s:184. -/ abbrev Asu1 : Fin 50 := 49

/-- s:187. -/ abbrev mDa0 : Nat := 0
/-- s:188. -/ abbrev mDa1 : Nat := 1
/-- s:189. -/ abbrev mDo0 : Nat := 2
/-- s:190. -/ abbrev mDo1 : Nat := 3
/-- s:191. -/ abbrev mDi0 : Nat := 4

/-- `ldr d, [r0, #i]`. -/
def ldr (d : Nat) (i : Fin 50) (m : M) : M := { m with r := set m.r d (m.A i) }

/-- `str d, [r0, #i]`. -/
def str (d : Nat) (i : Fin 50) (m : M) : M := { m with A := put m.A i (m.r d) }

/-- `ldr d, [sp, #i]`. -/
def ldrSp (d i : Nat) (m : M) : M := { m with r := set m.r d (m.s i) }

/-- `str d, [sp, #i]`. -/
def strSp (d i : Nat) (m : M) : M := { m with s := set m.s i (m.r d) }

/-- `eors d, n, k`. -/
def eor (d n k : Nat) (m : M) : M := { m with r := set m.r d (m.r n ^^^ m.r k) }

/-- `bic d, n, k` and `bics d, n, k`. -/
def bic (d n k : Nat) (m : M) : M := { m with r := set m.r d (m.r n &&& ~~~ m.r k) }

/-- `rors d, #32-rot`. -/
def rors (d rot : Nat) (m : M) : M := { m with r := set m.r d ((m.r d).rotateRight (32 - rot)) }

/-- `xor5` (s:196-207). -/
def xor5 (result : Nat) (b g k mm s : Fin 50) (m : M) : M :=
  let m := ldr result b m
  let m := ldr r1 g m
  let m := eor result result r1 m
  let m := ldr r1 k m
  let m := eor result result r1 m
  let m := ldr r1 mm m
  let m := eor result result r1 m
  let m := ldr r1 s m
  eor result result r1 m

/-- `xorrol` (s:209-212): `eor result, aa, bb, ROR #31`. -/
def xorrol (result aa bb : Nat) (m : M) : M :=
  { m with r := set m.r result (m.r aa ^^^ (m.r bb).rotateRight 31) }

/-- `xandnot` (s:214-219). -/
def xandnot (resofs : Fin 50) (aa bb cc : Nat) (m : M) : M :=
  let m := bic r1 cc bb m
  let m := eor r1 r1 aa m
  str r1 resofs m

/-- `KeccakThetaRhoPiChiIota` (s:221-251); `c` is the word at `[r1, #offset]`.  The lines for `last` are in
`permuteLoop`. -/
def thetaRhoPiChiIota (aA1 : Fin 50) (aDax : Nat) (aA2 : Fin 50) (aDex rot2 : Nat) (aA3 : Fin 50) (aDix rot3 : Nat)
    (aA4 : Fin 50) (aDox rot4 : Nat) (aA5 : Fin 50) (aDux rot5 : Nat) (c : Word) (m : M) : M :=
  let m := ldr r3 aA1 m
  let m := ldr r4 aA2 m
  let m := ldr r5 aA3 m
  let m := ldr r6 aA4 m
  let m := ldr r7 aA5 m
  let m := eor r3 r3 aDax m
  let m := eor r5 r5 aDix m
  let m := eor r4 r4 aDex m
  let m := eor r6 r6 aDox m
  let m := eor r7 r7 aDux m
  let m := rors r4 rot2 m
  let m := rors r5 rot3 m
  let m := rors r6 rot4 m
  let m := rors r7 rot5 m
  let m := xandnot aA2 r4 r5 r6 m
  let m := xandnot aA3 r5 r6 r7 m
  let m := xandnot aA4 r6 r7 r3 m
  let m := xandnot aA5 r7 r3 r4 m
  let m := bic r5 r5 r4 m
  let m := { m with r := set m.r r4 c }
  let m := eor r3 r3 r5 m
  let m := eor r3 r3 r4 m
  str r3 aA1 m

/-- `.if \rot2 > 0` (s:265-267). -/
def rorsIf (d rot : Nat) (m : M) : M := if 0 < rot then rors d rot m else m

/-- `KeccakThetaRhoPiChi` (s:253-276). -/
def thetaRhoPiChi (aB1 : Nat) (aA1 : Fin 50) (aDax rot1 aB2 : Nat) (aA2 : Fin 50) (aDex rot2 aB3 : Nat) (aA3 : Fin 50)
    (aDix rot3 aB4 : Nat) (aA4 : Fin 50) (aDox rot4 aB5 : Nat) (aA5 : Fin 50) (aDux rot5 : Nat) (m : M) : M :=
  let m := ldr aB1 aA1 m
  let m := ldr aB2 aA2 m
  let m := ldr aB3 aA3 m
  let m := ldr aB4 aA4 m
  let m := ldr aB5 aA5 m
  let m := eor aB1 aB1 aDax m
  let m := eor aB3 aB3 aDix m
  let m := eor aB2 aB2 aDex m
  let m := eor aB4 aB4 aDox m
  let m := eor aB5 aB5 aDux m
  let m := rors aB1 rot1 m
  let m := rorsIf aB2 rot2 m
  let m := rors aB3 rot3 m
  let m := rors aB4 rot4 m
  let m := rors aB5 rot5 m
  let m := xandnot aA1 r3 r4 r5 m
  let m := xandnot aA2 r4 r5 r6 m
  let m := xandnot aA3 r5 r6 r7 m
  let m := xandnot aA4 r6 r7 r3 m
  xandnot aA5 r7 r3 r4 m

/-! ## The rounds -/

/-- `KeccakRound0`, the theta effect (s:278-309). -/
def theta0 (m : M) : M :=
  let m := xor5 r3 Abu0 Agu0 Aku0 Amu0 Asu0 m
  let m := xor5 r7 Abe1 Age1 Ake1 Ame1 Ase1 m
  let m := xorrol r6 r3 r7 m
  let m := strSp r6 mDa0 m
  let m := xor5 r6 Abu1 Agu1 Aku1 Amu1 Asu1 m
  let m := xor5 lr Abe0 Age0 Ake0 Ame0 Ase0 m
  let m := eor r8 r6 lr m
  let m := strSp r8 mDa1 m
  let m := xor5 r5 Abi0 Agi0 Aki0 Ami0 Asi0 m
  let m := xorrol r9 r5 r6 m
  let m := strSp r9 mDo0 m
  let m := xor5 r4 Abi1 Agi1 Aki1 Ami1 Asi1 m
  let m := eor r3 r3 r4 m
  let m := strSp r3 mDo1 m
  let m := xor5 r3 Aba0 Aga0 Aka0 Ama0 Asa0 m
  let m := xorrol r10 r3 r4 m
  let m := xor5 r6 Aba1 Aga1 Aka1 Ama1 Asa1 m
  let m := eor r11 r6 r5 m
  let m := xor5 r4 Abo1 Ago1 Ako1 Amo1 Aso1 m
  let m := xorrol r5 lr r4 m
  let m := strSp r5 mDi0 m
  let m := xor5 r5 Abo0 Ago0 Ako0 Amo0 Aso0 m
  let m := eor r2 r7 r5 m
  let m := xorrol r12 r5 r6 m
  eor lr r4 r3 m

/-- `KeccakRound0`, the rest (s:310-326); `c0` and `c1` are the words read at `#0` and `#4`. -/
def rest0 (c0 c1 : Word) (m : M) : M :=
  let m := thetaRhoPiChi r5 Aka1 r8 2 r6 Ame1 r11 23 r7 Asi1 r2 31 r3 Abo0 r9 14 r4 Agu0 r12 10 m
  let m := thetaRhoPiChi r7 Asa1 r8 9 r3 Abe0 r10 0 r4 Agi1 r2 3 r5 Ako0 r9 12 r6 Amu1 lr 4 m
  let m := ldrSp r8 mDa0 m
  let m := thetaRhoPiChi r4 Aga0 r8 18 r5 Ake0 r10 5 r6 Ami1 r2 8 r7 Aso0 r9 28 r3 Abu1 lr 14 m
  let m := thetaRhoPiChi r6 Ama0 r8 20 r7 Ase1 r11 1 r3 Abi1 r2 31 r4 Ago0 r9 27 r5 Aku0 r12 19 m
  let m := ldrSp r9 mDo1 m
  let m := thetaRhoPiChiIota Aba0 r8 Age0 r10 22 Aki1 r2 22 Amo1 r9 11 Asu0 r12 7 c0 m
  let m := ldrSp r2 mDi0 m
  let m := thetaRhoPiChi r5 Aka0 r8 1 r6 Ame0 r10 22 r7 Asi0 r2 30 r3 Abo1 r9 14 r4 Agu1 lr 10 m
  let m := thetaRhoPiChi r7 Asa0 r8 9 r3 Abe1 r11 1 r4 Agi0 r2 3 r5 Ako1 r9 13 r6 Amu0 r12 4 m
  let m := ldrSp r8 mDa1 m
  let m := thetaRhoPiChi r4 Aga1 r8 18 r5 Ake1 r11 5 r6 Ami0 r2 7 r7 Aso1 r9 28 r3 Abu0 r12 13 m
  let m := thetaRhoPiChi r6 Ama1 r8 21 r7 Ase0 r10 1 r3 Abi0 r2 31 r4 Ago1 r9 28 r5 Aku1 lr 20 m
  let m := ldrSp r9 mDo0 m
  thetaRhoPiChiIota Aba1 r8 Age1 r11 22 Aki0 r2 21 Amo0 r9 10 Asu1 lr 7 c1 m

/-- `KeccakRound0` (s:278-326). -/
def round0 (c0 c1 : Word) (m : M) : M := rest0 c0 c1 (theta0 m)

/-- `KeccakRound1`, the theta effect (s:328-359). -/
def theta1 (m : M) : M :=
  let m := xor5 r3 Asu0 Agu0 Amu0 Abu1 Aku1 m
  let m := xor5 r7 Age1 Ame0 Abe0 Ake1 Ase1 m
  let m := xorrol r6 r3 r7 m
  let m := strSp r6 mDa0 m
  let m := xor5 r6 Asu1 Agu1 Amu1 Abu0 Aku0 m
  let m := xor5 lr Age0 Ame1 Abe1 Ake0 Ase0 m
  let m := eor r8 r6 lr m
  let m := strSp r8 mDa1 m
  let m := xor5 r5 Aki1 Asi1 Agi0 Ami1 Abi0 m
  let m := xorrol r9 r5 r6 m
  let m := strSp r9 mDo0 m
  let m := xor5 r4 Aki0 Asi0 Agi1 Ami0 Abi1 m
  let m := eor r3 r3 r4 m
  let m := strSp r3 mDo1 m
  let m := xor5 r3 Aba0 Aka1 Asa0 Aga0 Ama1 m
  let m := xorrol r10 r3 r4 m
  let m := xor5 r6 Aba1 Aka0 Asa1 Aga1 Ama0 m
  let m := eor r11 r6 r5 m
  let m := xor5 r4 Amo0 Abo1 Ako0 Aso1 Ago0 m
  let m := xorrol r5 lr r4 m
  let m := strSp r5 mDi0 m
  let m := xor5 r5 Amo1 Abo0 Ako1 Aso0 Ago1 m
  let m := eor r2 r7 r5 m
  let m := xorrol r12 r5 r6 m
  eor lr r4 r3 m

/-- `KeccakRound1`, the rest (s:360-376); `c0` and `c1` are the words read at `#8` and `#12`. -/
def rest1 (c0 c1 : Word) (m : M) : M :=
  let m := thetaRhoPiChi r5 Asa1 r8 2 r6 Ake1 r11 23 r7 Abi1 r2 31 r3 Amo1 r9 14 r4 Agu0 r12 10 m
  let m := thetaRhoPiChi r7 Ama0 r8 9 r3 Age0 r10 0 r4 Asi0 r2 3 r5 Ako1 r9 12 r6 Abu0 lr 4 m
  let m := ldrSp r8 mDa0 m
  let m := thetaRhoPiChi r4 Aka1 r8 18 r5 Abe1 r10 5 r6 Ami0 r2 8 r7 Ago1 r9 28 r3 Asu1 lr 14 m
  let m := thetaRhoPiChi r6 Aga0 r8 20 r7 Ase1 r11 1 r3 Aki0 r2 31 r4 Abo0 r9 27 r5 Amu0 r12 19 m
  let m := ldrSp r9 mDo1 m
  let m := thetaRhoPiChiIota Aba0 r8 Ame1 r10 22 Agi1 r2 22 Aso1 r9 11 Aku1 r12 7 c0 m
  let m := ldrSp r2 mDi0 m
  let m := thetaRhoPiChi r5 Asa0 r8 1 r6 Ake0 r10 22 r7 Abi0 r2 30 r3 Amo0 r9 14 r4 Agu1 lr 10 m
  let m := thetaRhoPiChi r7 Ama1 r8 9 r3 Age1 r11 1 r4 Asi1 r2 3 r5 Ako0 r9 13 r6 Abu1 r12 4 m
  let m := ldrSp r8 mDa1 m
  let m := thetaRhoPiChi r4 Aka0 r8 18 r5 Abe0 r11 5 r6 Ami1 r2 7 r7 Ago0 r9 28 r3 Asu0 r12 13 m
  let m := thetaRhoPiChi r6 Aga1 r8 21 r7 Ase0 r10 1 r3 Aki1 r2 31 r4 Abo1 r9 28 r5 Amu1 lr 20 m
  let m := ldrSp r9 mDo0 m
  thetaRhoPiChiIota Aba1 r8 Ame0 r11 22 Agi0 r2 21 Aso0 r9 10 Aku0 lr 7 c1 m

/-- `KeccakRound1` (s:328-376). -/
def round1 (c0 c1 : Word) (m : M) : M := rest1 c0 c1 (theta1 m)

/-- `KeccakRound2`, the theta effect (s:378-409). -/
def theta2 (m : M) : M :=
  let m := xor5 r3 Aku1 Agu0 Abu1 Asu1 Amu1 m
  let m := xor5 r7 Ame0 Ake0 Age0 Abe0 Ase1 m
  let m := xorrol r6 r3 r7 m
  let m := strSp r6 mDa0 m
  let m := xor5 r6 Aku0 Agu1 Abu0 Asu0 Amu0 m
  let m := xor5 lr Ame1 Ake1 Age1 Abe1 Ase0 m
  let m := eor r8 r6 lr m
  let m := strSp r8 mDa1 m
  let m := xor5 r5 Agi1 Abi1 Asi1 Ami0 Aki1 m
  let m := xorrol r9 r5 r6 m
  let m := strSp r9 mDo0 m
  let m := xor5 r4 Agi0 Abi0 Asi0 Ami1 Aki0 m
  let m := eor r3 r3 r4 m
  let m := strSp r3 mDo1 m
  let m := xor5 r3 Aba0 Asa1 Ama1 Aka1 Aga1 m
  let m := xorrol r10 r3 r4 m
  let m := xor5 r6 Aba1 Asa0 Ama0 Aka0 Aga0 m
  let m := eor r11 r6 r5 m
  let m := xor5 r4 Aso0 Amo0 Ako1 Ago0 Abo0 m
  let m := xorrol r5 lr r4 m
  let m := strSp r5 mDi0 m
  let m := xor5 r5 Aso1 Amo1 Ako0 Ago1 Abo1 m
  let m := eor r2 r7 r5 m
  let m := xorrol r12 r5 r6 m
  eor lr r4 r3 m

/-- `KeccakRound2`, the rest (s:410-426); `c0` and `c1` are the words read at `#16` and `#20`. -/
def rest2 (c0 c1 : Word) (m : M) : M :=
  let m := thetaRhoPiChi r5 Ama0 r8 2 r6 Abe0 r11 23 r7 Aki0 r2 31 r3 Aso1 r9 14 r4 Agu0 r12 10 m
  let m := thetaRhoPiChi r7 Aga0 r8 9 r3 Ame1 r10 0 r4 Abi0 r2 3 r5 Ako0 r9 12 r6 Asu0 lr 4 m
  let m := ldrSp r8 mDa0 m
  let m := thetaRhoPiChi r4 Asa1 r8 18 r5 Age1 r10 5 r6 Ami1 r2 8 r7 Abo1 r9 28 r3 Aku0 lr 14 m
  let m := thetaRhoPiChi r6 Aka1 r8 20 r7 Ase1 r11 1 r3 Agi0 r2 31 r4 Amo1 r9 27 r5 Abu1 r12 19 m
  let m := ldrSp r9 mDo1 m
  let m := thetaRhoPiChiIota Aba0 r8 Ake1 r10 22 Asi0 r2 22 Ago0 r9 11 Amu1 r12 7 c0 m
  let m := ldrSp r2 mDi0 m
  let m := thetaRhoPiChi r5 Ama1 r8 1 r6 Abe1 r10 22 r7 Aki1 r2 30 r3 Aso0 r9 14 r4 Agu1 lr 10 m
  let m := thetaRhoPiChi r7 Aga1 r8 9 r3 Ame0 r11 1 r4 Abi1 r2 3 r5 Ako1 r9 13 r6 Asu1 r12 4 m
  let m := ldrSp r8 mDa1 m
  let m := thetaRhoPiChi r4 Asa0 r8 18 r5 Age0 r11 5 r6 Ami0 r2 7 r7 Abo0 r9 28 r3 Aku1 r12 13 m
  let m := thetaRhoPiChi r6 Aka0 r8 21 r7 Ase0 r10 1 r3 Agi1 r2 31 r4 Amo0 r9 28 r5 Abu0 lr 20 m
  let m := ldrSp r9 mDo0 m
  thetaRhoPiChiIota Aba1 r8 Ake0 r11 22 Asi1 r2 21 Ago1 r9 10 Amu0 lr 7 c1 m

/-- `KeccakRound2` (s:378-426). -/
def round2 (c0 c1 : Word) (m : M) : M := rest2 c0 c1 (theta2 m)

/-- `KeccakRound3`, the theta effect (s:428-459). -/
def theta3 (m : M) : M :=
  let m := xor5 r3 Amu1 Agu0 Asu1 Aku0 Abu0 m
  let m := xor5 r7 Ake0 Abe1 Ame1 Age0 Ase1 m
  let m := xorrol r6 r3 r7 m
  let m := strSp r6 mDa0 m
  let m := xor5 r6 Amu0 Agu1 Asu0 Aku1 Abu1 m
  let m := xor5 lr Ake1 Abe0 Ame0 Age1 Ase0 m
  let m := eor r8 r6 lr m
  let m := strSp r8 mDa1 m
  let m := xor5 r5 Asi0 Aki0 Abi1 Ami1 Agi1 m
  let m := xorrol r9 r5 r6 m
  let m := strSp r9 mDo0 m
  let m := xor5 r4 Asi1 Aki1 Abi0 Ami0 Agi0 m
  let m := eor r3 r3 r4 m
  let m := strSp r3 mDo1 m
  let m := xor5 r3 Aba0 Ama0 Aga1 Asa1 Aka0 m
  let m := xorrol r10 r3 r4 m
  let m := xor5 r6 Aba1 Ama1 Aga0 Asa0 Aka1 m
  let m := eor r11 r6 r5 m
  let m := xor5 r4 Ago1 Aso0 Ako0 Abo0 Amo1 m
  let m := xorrol r5 lr r4 m
  let m := strSp r5 mDi0 m
  let m := xor5 r5 Ago0 Aso1 Ako1 Abo1 Amo0 m
  let m := eor r2 r7 r5 m
  let m := xorrol r12 r5 r6 m
  eor lr r4 r3 m

/-- `KeccakRound3`, the rest (s:460-476); `c0` and `c1` are the words read at `#24` and `#28`. -/
def rest3 (c0 c1 : Word) (m : M) : M :=
  let m := thetaRhoPiChi r5 Aga0 r8 2 r6 Age0 r11 23 r7 Agi0 r2 31 r3 Ago0 r9 14 r4 Agu0 r12 10 m
  let m := thetaRhoPiChi r7 Aka1 r8 9 r3 Ake1 r10 0 r4 Aki1 r2 3 r5 Ako1 r9 12 r6 Aku1 lr 4 m
  let m := ldrSp r8 mDa0 m
  let m := thetaRhoPiChi r4 Ama0 r8 18 r5 Ame0 r10 5 r6 Ami0 r2 8 r7 Amo0 r9 28 r3 Amu0 lr 14 m
  let m := thetaRhoPiChi r6 Asa1 r8 20 r7 Ase1 r11 1 r3 Asi1 r2 31 r4 Aso1 r9 27 r5 Asu1 r12 19 m
  let m := ldrSp r9 mDo1 m
  let m := thetaRhoPiChiIota Aba0 r8 Abe0 r10 22 Abi0 r2 22 Abo0 r9 11 Abu0 r12 7 c0 m
  let m := ldrSp r2 mDi0 m
  let m := thetaRhoPiChi r5 Aga1 r8 1 r6 Age1 r10 22 r7 Agi1 r2 30 r3 Ago1 r9 14 r4 Agu1 lr 10 m
  let m := thetaRhoPiChi r7 Aka0 r8 9 r3 Ake0 r11 1 r4 Aki0 r2 3 r5 Ako0 r9 13 r6 Aku0 r12 4 m
  let m := ldrSp r8 mDa1 m
  let m := thetaRhoPiChi r4 Ama1 r8 18 r5 Ame1 r11 5 r6 Ami1 r2 7 r7 Amo1 r9 28 r3 Amu1 r12 13 m
  let m := thetaRhoPiChi r6 Asa0 r8 21 r7 Ase0 r10 1 r3 Asi0 r2 31 r4 Aso0 r9 28 r5 Asu0 lr 20 m
  let m := ldrSp r9 mDo0 m
  thetaRhoPiChiIota Aba1 r8 Abe1 r11 22 Abi1 r2 21 Abo1 r9 10 Abu1 lr 7 c1 m

/-- `KeccakRound3` (s:428-476). -/
def round3 (c0 c1 : Word) (m : M) : M := rest3 c0 c1 (theta3 m)

/-! ## The permutation -/

/-- The table from `KeccakP1600_Permute_RoundConstants24` to the terminator (s:1124-1152). -/
def roundConstants : List Word := [
  0x00000001, 0x00000000,
  0x00000000, 0x00000089,
  0x00000000, 0x8000008b,
  0x00000000, 0x80008080,
  0x00000001, 0x0000008b,
  0x00000001, 0x00008000,
  0x00000001, 0x80008088,
  0x00000001, 0x80000082,
  0x00000000, 0x0000000b,
  0x00000000, 0x0000000a,
  0x00000001, 0x00008082,
  0x00000000, 0x00008003,
  0x00000001, 0x0000808b,
  0x00000001, 0x8000000b,
  0x00000001, 0x8000008a,
  0x00000001, 0x80000081,
  0x00000000, 0x80000081,
  0x00000000, 0x80000008,
  0x00000000, 0x00000083,
  0x00000000, 0x80008003,
  0x00000001, 0x80008088,
  0x00000000, 0x80000088,
  0x00000001, 0x00008000,
  0x00000000, 0x80008082,
  0x000000FF]

/-- Reading the word at an offset in bytes from `KeccakP1600_Permute_RoundConstants24`; outside of the table the value is
not known, `none`. -/
def rc (a : Nat) : Option Word := if a % 4 = 0 then roundConstants[a / 4]? else none

/-- `KeccakP1600_Permute_RoundConstants12` (s:1137), 12 constants after the beginning of the table. -/
abbrev roundConstants12 : Nat := 96
/-- `KeccakP1600_Permute_RoundConstants0` (s:1146). -/
abbrev roundConstants0 : Nat := 160
/-- `KeccakP1600_Permute_RoundConstants0Mod4` (s:1151). -/
abbrev roundConstants0Mod4 : Nat := 192

/-- A round, with the words at `[r1, #off]` and `[r1, #off+4]`. -/
def step (round : Word → Word → M → M) (t off : Nat) (m : M) : Option M := do
  let c0 ← rc (t + off)
  let c1 ← rc (t + (off + 4))
  some (round c0 c1 m)

/-- The rounds from one of the labels `KeccakP1600_Permute_RoundLoop` (0), `KeccakP1600_Permute_Round3Mod4` (3),
`KeccakP1600_Permute_Round2Mod4` (2) and `KeccakP1600_Permute_Round1Mod4` (1) on (s:1163-1170). -/
def rounds (label t : Nat) (m : M) : Option M :=
  match label with
  | 0 => do
    let m ← step round0 t 0 m
    let m ← step round1 t 8 m
    let m ← step round2 t 16 m
    step round3 t 24 m
  | 3 => do
    let m ← step round1 t 8 m
    let m ← step round2 t 16 m
    step round3 t 24 m
  | 2 => do
    let m ← step round2 t 16 m
    step round3 t 24 m
  | _ => step round3 t 24 m

/-- The loop of `KeccakP1600_Permute` (s:1163-1171), `t` being the pointer at `[sp, #mRC]`; the pointer is advanced and the
next constant compared at the end of the last round (s:245-249). -/
def permuteLoop : Nat → Nat → Nat → M → Option M
  | 0, _, _, _ => none
  | fuel + 1, label, t, m => do
    let m ← rounds label t m
    let r4 ← rc (t + 32)
    if r4 ≠ 0xFF then permuteLoop fuel 0 (t + 32) m else some m

/-- `KeccakP1600_Permute` (s:1159-1173). -/
def permute (rcPtr : Nat) (m : M) : Option M := permuteLoop (2 ^ 32) 0 rcPtr m

/-- `\in+4*e`. -/
def word (i : Fin 50) (e : Nat) : Fin 50 := Fin.ofNat 50 (i.val + e)

/-- `SwapPI13` (s:1000-1017). -/
def SwapPI13 (in0 in1 in2 in3 : Fin 50) (eo0 eo1 eo2 eo3 : Nat) (m : M) : M :=
  let m := ldr r3 (word in0 0) m
  let m := ldr r4 (word in0 1) m
  let m := ldr r2 (word in1 0) m
  let m := ldr r1 (word in1 1) m
  let m := str r2 (word in0 eo0) m
  let m := str r1 (word in0 (eo0 ^^^ 1)) m
  let m := ldr r2 (word in2 0) m
  let m := ldr r1 (word in2 1) m
  let m := str r2 (word in1 eo1) m
  let m := str r1 (word in1 (eo1 ^^^ 1)) m
  let m := ldr r2 (word in3 0) m
  let m := ldr r1 (word in3 1) m
  let m := str r2 (word in2 eo2) m
  let m := str r1 (word in2 (eo2 ^^^ 1)) m
  let m := str r3 (word in3 eo3) m
  str r4 (word in3 (eo3 ^^^ 1)) m

/-- `SwapPI2` (s:1019-1036). -/
def SwapPI2 (in0 in1 in2 in3 : Fin 50) (m : M) : M :=
  let m := ldr r3 (word in0 0) m
  let m := ldr r4 (word in0 1) m
  let m := ldr r2 (word in1 0) m
  let m := ldr r1 (word in1 1) m
  let m := str r2 (word in0 1) m
  let m := str r1 (word in0 0) m
  let m := str r3 (word in1 1) m
  let m := str r4 (word in1 0) m
  let m := ldr r3 (word in2 0) m
  let m := ldr r4 (word in2 1) m
  let m := ldr r2 (word in3 0) m
  let m := ldr r1 (word in3 1) m
  let m := str r2 (word in2 1) m
  let m := str r1 (word in2 0) m
  let m := str r3 (word in3 1) m
  str r4 (word in3 0) m

/-- `SwapEO` (s:1038-1043). -/
def SwapEO (even odd : Fin 50) (m : M) : M :=
  let m := ldr r3 even m
  let m := ldr r4 odd m
  let m := str r3 odd m
  str r4 even m

/-- `KeccakP1600_Permute_Nrounds1Mod4` (s:1069-1077). -/
def swap1 (m : M) : M :=
  let m := SwapPI13 Aga0 Aka0 Asa0 Ama0 1 0 1 0 m
  let m := SwapPI13 Abe0 Age0 Ame0 Ake0 0 1 0 1 m
  let m := SwapPI13 Abi0 Aki0 Agi0 Asi0 1 0 1 0 m
  let m := SwapEO Ami0 Ami1 m
  let m := SwapPI13 Abo0 Amo0 Aso0 Ago0 1 0 1 0 m
  let m := SwapEO Ako0 Ako1 m
  SwapPI13 Abu0 Asu0 Aku0 Amu0 0 1 0 1 m

/-- `KeccakP1600_Permute_Nrounds3Mod4` (s:1080-1088). -/
def swap3 (m : M) : M :=
  let m := SwapPI13 Aga0 Ama0 Asa0 Aka0 0 1 0 1 m
  let m := SwapPI13 Abe0 Ake0 Ame0 Age0 1 0 1 0 m
  let m := SwapPI13 Abi0 Asi0 Agi0 Aki0 0 1 0 1 m
  let m := SwapEO Ami0 Ami1 m
  let m := SwapPI13 Abo0 Ago0 Aso0 Amo0 0 1 0 1 m
  let m := SwapEO Ako0 Ako1 m
  SwapPI13 Abu0 Amu0 Aku0 Asu0 1 0 1 0 m

/-- `KeccakP1600_Permute_Nrounds2Mod4` (s:1089-1095). -/
def swap2 (m : M) : M :=
  let m := SwapPI2 Aga0 Asa0 Aka0 Ama0 m
  let m := SwapPI2 Abe0 Ame0 Age0 Ake0 m
  let m := SwapPI2 Abi0 Agi0 Aki0 Asi0 m
  let m := SwapPI2 Abo0 Aso0 Ago0 Amo0 m
  SwapPI2 Abu0 Aku0 Amu0 Asu0 m

/-- `KeccakP1600_Permute_Nrounds` (s:1052-1094), with the values of the registers and of the stack before the call in
`m`.  `lsls r3, r1, #30` keeps bits 0 and 1 of `nrounds`, and `lsls r3, r3, #1` puts bit 1 in the carry and bit 0 in the
sign. -/
def permuteNrounds (m : M) (nrounds : Nat) : Option M :=
  let r3 := BitVec.ofNat 32 nrounds <<< 30
  if r3 = 0 then
    permute (sub32 roundConstants0Mod4 (nrounds * 8 % 2 ^ 32)) m
  else
    let t := sub32 roundConstants0 (nrounds / 4 * 32 % 2 ^ 32)
    let carry := r3.getLsbD 31
    let r3 := r3 <<< 1
    if carry = false then permuteLoop (2 ^ 32) 1 t (swap1 m)
    else if r3.getLsbD 31 = false then permuteLoop (2 ^ 32) 2 t (swap2 m)
    else permuteLoop (2 ^ 32) 3 t (swap3 m)

/-- `KeccakP1600_Permute_12rounds` (s:1105-1107). -/
def permute12 (m : M) : Option M := permute roundConstants12 m

/-- `KeccakP1600_Permute_24rounds` (s:1117-1119). -/
def permute24 (m : M) : Option M := permute 0 m

/-! ## Bit interleaving -/

/-- Bits `lsb` to `lsb + width - 1`. -/
def field (lsb width : Nat) : Word := ((1 <<< width) - 1) <<< lsb

/-- `bfi d, n, #lsb, #width`. -/
def bfi (d n : Word) (lsb width : Nat) : Word := (d &&& ~~~ field lsb width) ||| ((n <<< lsb) &&& field lsb width)

/-- `bfc d, #lsb, #width`. -/
def bfc (d : Word) (lsb width : Nat) : Word := d &&& ~~~ field lsb width

/-- The masks of `toBitInterleaving` and of `fromBitInterleaving`. -/
structure Masks where
  (m55 m33 m0F mFF mAA mCC mF0 mFF00 : Word)
  (fFF fF0 f0C f22 : Word)

/-- `toBitInterleaving x0,x1,s0,s1,t,over` (s:33-83, a:33-83): the new values of `s0` and `s1`. -/
def toBitInterleaving (k : Masks) (x0 x1 s0 s1 : Word) (over : Bool) : Word × Word :=
  let t := x0 &&& k.m55
  let t := t ||| (t >>> 1)
  let t := t &&& k.m33
  let t := t ||| (t >>> 2)
  let t := t &&& k.m0F
  let t := t ||| (t >>> 4)
  let t := t &&& k.mFF
  let t := bfi t t 8 8
  let s0 := if over then t >>> 8 else s0 ^^^ (t >>> 8)
  let t := x1 &&& k.m55
  let t := t ||| (t >>> 1)
  let t := t &&& k.m33
  let t := t ||| (t >>> 2)
  let t := t &&& k.m0F
  let t := t ||| (t >>> 4)
  let t := t &&& k.mFF
  let t := t ||| (t >>> 8)
  let s0 := s0 ^^^ (t <<< 16)
  let t := x0 &&& k.mAA
  let t := t ||| (t <<< 1)
  let t := t &&& k.mCC
  let t := t ||| (t <<< 2)
  let t := t &&& k.mF0
  let t := t ||| (t <<< 4)
  let t := t &&& k.mFF00
  let t := t ||| (t <<< 8)
  let s1 := if over then t >>> 16 else s1 ^^^ (t >>> 16)
  let t := x1 &&& k.mAA
  let t := t ||| (t <<< 1)
  let t := t &&& k.mCC
  let t := t ||| (t <<< 2)
  let t := t &&& k.mF0
  let t := t ||| (t <<< 4)
  let t := t &&& k.mFF00
  let t := t ||| (t <<< 8)
  let t := bfc t 0 16
  let s1 := s1 ^^^ t
  (s0, s1)

/-- `fromBitInterleaving x0, x1, t` (s:86-132, a:86-132): the new values of `x0` and `x1`. -/
def fromBitInterleaving (k : Masks) (x0 x1 : Word) : Word × Word :=
  let t := x0
  let x0 := bfi x0 x1 16 16
  let x1 := bfc x1 0 16
  let x1 := x1 ||| (t >>> 16)
  let t := x0 ^^^ (x0 >>> 8)
  let t := t &&& k.fFF
  let x0 := x0 ^^^ t
  let x0 := x0 ^^^ (t <<< 8)
  let t := x0 ^^^ (x0 >>> 4)
  let t := t &&& k.fF0
  let x0 := x0 ^^^ t
  let x0 := x0 ^^^ (t <<< 4)
  let t := x0 ^^^ (x0 >>> 2)
  let t := t &&& k.f0C
  let x0 := x0 ^^^ t
  let x0 := x0 ^^^ (t <<< 2)
  let t := x0 ^^^ (x0 >>> 1)
  let t := t &&& k.f22
  let x0 := x0 ^^^ t
  let x0 := x0 ^^^ (t <<< 1)
  let t := x1 ^^^ (x1 >>> 8)
  let t := t &&& k.fFF
  let x1 := x1 ^^^ t
  let x1 := x1 ^^^ (t <<< 8)
  let t := x1 ^^^ (x1 >>> 4)
  let t := t &&& k.fF0
  let x1 := x1 ^^^ t
  let x1 := x1 ^^^ (t <<< 4)
  let t := x1 ^^^ (x1 >>> 2)
  let t := t &&& k.f0C
  let x1 := x1 ^^^ t
  let x1 := x1 ^^^ (t <<< 2)
  let t := x1 ^^^ (x1 >>> 1)
  let t := t &&& k.f22
  let x1 := x1 ^^^ t
  let x1 := x1 ^^^ (t <<< 1)
  (x0, x1)

/-- The immediate values of ARMv7-M (s:35-79, 94-129). -/
def armv7m : Masks where
  m55 := 0x55555555
  m33 := 0x33333333
  m0F := 0x0F0F0F0F
  mFF := 0x00FF00FF
  mAA := 0xAAAAAAAA
  mCC := 0xCCCCCCCC
  mF0 := 0xF0F0F0F0
  mFF00 := 0xFF00FF00
  fFF := 0x0000FF00
  fF0 := 0x00F000F0
  f0C := 0x0C0C0C0C
  f22 := 0x22222222

/-- `movw r, #lo`, `movt r, #hi`. -/
def movwt (lo hi : Word) : Word := (lo &&& 0xFFFF) ||| (hi <<< 16)

/-- The registers of ARMv7-A: `r8` to `r11` in the functions which write to the state (a:529-536), shifted in the second
half of the macro (a:59-79), and `r6` to `r9` in the functions which read from it (a:902-908). -/
def armv7a : Masks :=
  let r8 := movwt 0x5555 0x5555
  let r9 := movwt 0x3333 0x3333
  let r10 := movwt 0x0F0F 0x0F0F
  let r11 := movwt 0x00FF 0x00FF
  { m55 := r8, m33 := r9, m0F := r10, mFF := r11
    mAA := r8 <<< 1, mCC := r9 <<< 2, mF0 := r10 <<< 4, mFF00 := r11 <<< 8
    fFF := 0xFF00, fF0 := movwt 0x00F0 0x00F0, f0C := movwt 0x0C0C 0x0C0C, f22 := movwt 0x2222 0x2222 }

/-! ## Functions on bytes -/

/-- `ldrd a, b, [r0]`, the pointer being a multiple of 8. -/
def ldrd (A : Words) (p : Nat) : Option (Word × Word) := do
  let a ← getWord A (p / 4)
  let b ← getWord A (p / 4 + 1)
  some (a, b)

/-- `strd a, b, [r0]`. -/
def strd (A : Words) (p : Nat) (w : Word × Word) : Option Words := do
  let A ← setWord A (p / 4) w.1
  setWord A (p / 4 + 1) w.2

/-- `ldr r, [r1], #4` in a buffer. -/
def ldrBuf (b : Bytes) (p : Nat) : Option Word := if p + 4 ≤ b.length then some (Ref32.word b p) else none

/-- The pointers `r0` and `r1` with the state. -/
structure Wr where
  A : Words
  r0 : Nat
  r1 : Nat

/-- The pointers `r0` and `r1` of a function which reads from the state, with the bytes written. -/
structure Rd where
  out : Bytes
  r0 : Nat
  r1 : Nat

/-- `KeccakP1600_Initialize` (s:497-515): ten times five words. -/
def initState : Words := fun _ => 0

/-- `KeccakP1600_AddByte` (s:525-542); the 8 bytes at `sp`. -/
def addByte (k : Masks) (A : Words) (byte : Byte) (offset : Nat) : Option Words := do
  let r0 := offset / 8 * 8
  let r2 := offset % 8
  let sp ← strb (List.replicate 8 0) r2 byte
  let w ← ldrd A r0
  strd A r0 (toBitInterleaving k (Ref32.word sp 0) (Ref32.word sp 4) w.1 w.2 false)

/-- `__KeccakP1600_AddLanes` (s:600-609). -/
def addLanes (k : Masks) (data : Bytes) : Nat → Wr → Nat → Option Wr
  | 0, _, _ => none
  | fuel + 1, st, r2 => do
    let r4 ← ldrBuf data st.r1
    let r5 ← ldrBuf data (st.r1 + 4)
    let w ← ldrd st.A st.r0
    let A ← strd st.A st.r0 (toBitInterleaving k r4 r5 w.1 w.2 false)
    let st := ⟨A, st.r0 + 8, st.r1 + 8⟩
    if sub32 r2 1 ≠ 0 then addLanes k data fuel st (sub32 r2 1) else some st

/-- The loop at `__KeccakP1600_AddBytesInLane_Loop` (s:634-638), the same at `KeccakP1600_OverwriteBytesInLane_Loop`
(s:740-746) but for the mask: the bytes at `sp`, and the pointer `r1`. -/
def copyLoop (data : Bytes) : Nat → Bytes → Nat → Nat → Nat → Option (Bytes × Nat)
  | 0, _, _, _, _ => none
  | fuel + 1, sp, r1, r2, r3 => do
    let r5 ← ldrb data r1
    let sp ← strb sp r2 r5
    if sub32 r3 1 ≠ 0 then copyLoop data fuel sp (r1 + 1) (r2 + 1) (sub32 r3 1) else some (sp, r1 + 1)

/-- `__KeccakP1600_AddBytesInLane` (s:629-643). -/
def addBytesInLane (k : Masks) (data : Bytes) (st : Wr) (r2 r3 : Nat) : Option Wr := do
  let c ← copyLoop data (2 ^ 32) (List.replicate 8 0) st.r1 r2 r3
  let w ← ldrd st.A st.r0
  let A ← strd st.A st.r0 (toBitInterleaving k (Ref32.word c.1 0) (Ref32.word c.1 4) w.1 w.2 false)
  some ⟨A, st.r0 + 8, c.2⟩

/-- `cmp r4, r5; ble; movs r4, r5` (s:558-562): the smaller, compared as signed numbers. -/
def minS (a b : Nat) : Nat := if (BitVec.ofNat 32 a).sle (BitVec.ofNat 32 b) then a else b

/-- A call which is skipped if a register is zero (`beq`, `cbz`). -/
def skip0 {σ : Type} (n : Nat) (st : σ) (call : Option σ) : Option σ := if n = 0 then some st else call

/-- The structure of `KeccakP1600_AddBytes` (s:551-581), `KeccakP1600_OverwriteBytes` (s:653-683), and, but for the registers,
of `KeccakP1600_ExtractBytes` (s:800-830) and `KeccakP1600_ExtractAndAddBytes` (s:898-929): the rest of the first lane,
whole lanes, the beginning of the last lane. -/
def bytesFn {σ : Type} (inLane : σ → Nat → Nat → Option σ) (lanes : σ → Nat → Option σ) (st : σ) (offset length : Nat) :
    Option σ :=
  if length = 0 then some st
  else do
    let r2 := offset % 8
    let r4 := minS length (8 - r2)
    let st ← skip0 r2 st (inLane st r2 r4)
    let r3 := if r2 = 0 then length else sub32 length r4
    let st ← skip0 (r3 / 8) st (lanes st (r3 / 8))
    skip0 (r3 % 8) st (inLane st 0 (r3 % 8))

/-- `KeccakP1600_AddBytes` (s:551-581). -/
def addBytes (k : Masks) (A : Words) (data : Bytes) (offset length : Nat) : Option Words := do
  let st ← bytesFn (addBytesInLane k data) (addLanes k data (2 ^ 32)) ⟨A, offset / 8 * 8, 0⟩ offset length
  some st.A

/-- `__KeccakP1600_OverwriteLanes` (s:702-711). -/
def overwriteLanes (k : Masks) (data : Bytes) : Nat → Wr → Nat → Option Wr
  | 0, _, _ => none
  | fuel + 1, st, r2 => do
    let r4 ← ldrBuf data st.r1
    let r5 ← ldrBuf data (st.r1 + 4)
    let w ← ldrd st.A st.r0
    let A ← strd st.A st.r0 (toBitInterleaving k r4 r5 w.1 w.2 true)
    let st := ⟨A, st.r0 + 8, st.r1 + 8⟩
    if sub32 r2 1 ≠ 0 then overwriteLanes k data fuel st (sub32 r2 1) else some st

/-- The mask `r6` in `KeccakP1600_OverwriteBytesInLane_Loop` (s:740-746), and `r2` in
`KeccakP1600_OverwriteWithZeroes_LoopBytes` (s:779-783). -/
def maskLoop : Nat → Word → Word → Nat → Option Word
  | 0, _, _, _ => none
  | fuel + 1, r6, r7, r3 =>
    let r6 := r6 ||| r7
    let r7 := r7 <<< 4
    if sub32 r3 1 ≠ 0 then maskLoop fuel r6 r7 (sub32 r3 1) else some r6

/-- `lsls r6, r6, r7` with the amount in a register. -/
def lslReg (a : Word) (n : Nat) : Word := a <<< (n % 256)

/-- `__KeccakP1600_OverwriteBytesInLane` (s:731-755); the loop is split in two, one for the bytes and one for the mask. -/
def overwriteBytesInLane (k : Masks) (data : Bytes) (st : Wr) (r2 r3 : Nat) : Option Wr := do
  let r6 := lslReg 0x0F (r2 * 4)
  let r7 := r6
  let r6 ← maskLoop (2 ^ 32) r6 r7 r3
  let c ← copyLoop data (2 ^ 32) (List.replicate 8 0) st.r1 r2 r3
  let t := toBitInterleaving k (Ref32.word c.1 0) (Ref32.word c.1 4) 0 0 true
  let w ← ldrd st.A st.r0
  let A ← strd st.A st.r0 (t.1 ||| (w.1 &&& ~~~ r6), t.2 ||| (w.2 &&& ~~~ r6))
  some ⟨A, st.r0 + 8, c.2⟩

/-- `KeccakP1600_OverwriteBytes` (s:653-683). -/
def overwriteBytes (k : Masks) (A : Words) (data : Bytes) (offset length : Nat) : Option Words := do
  let st ← bytesFn (overwriteBytesInLane k data) (overwriteLanes k data (2 ^ 32)) ⟨A, offset / 8 * 8, 0⟩ offset length
  some st.A

/-- `KeccakP1600_OverwriteWithZeroes_LoopLanes` (s:771-774). -/
def zeroLanes : Nat → Words → Nat → Nat → Option (Words × Nat)
  | 0, _, _, _ => none
  | fuel + 1, A, r0, r2 => do
    let A ← strd A r0 (0, 0)
    if sub32 r2 1 ≠ 0 then zeroLanes fuel A (r0 + 8) (sub32 r2 1) else some (A, r0 + 8)

/-- `KeccakP1600_OverwriteWithZeroes` (s:765-790). -/
def overwriteWithZeroes (A : Words) (byteCount : Nat) : Option Words := do
  let p ← skip0 (byteCount / 8) (A, 0) (zeroLanes (2 ^ 32) A 0 (byteCount / 8))
  if byteCount % 8 = 0 then some p.1
  else do
    let r2 ← maskLoop (2 ^ 32) 0 0x0F (byteCount % 8)
    let w ← ldrd p.1 p.2
    strd p.1 p.2 (w.1 &&& ~~~ r2, w.2 &&& ~~~ r2)

/-- `__KeccakP1600_ExtractLanes` (s:849-857). -/
def extractLanes (k : Masks) (A : Words) : Nat → Rd → Nat → Option Rd
  | 0, _, _ => none
  | fuel + 1, st, r2 => do
    let w ← ldrd A st.r0
    let w := fromBitInterleaving k w.1 w.2
    let st := ⟨st.out ++ (Ref32.bytes w.1 ++ Ref32.bytes w.2), st.r0 + 8, st.r1 + 8⟩
    if sub32 r2 1 ≠ 0 then extractLanes k A fuel st (sub32 r2 1) else some st

/-- `__KeccakP1600_ExtractBytesInLane_Loop` (s:882-886); the bytes at `sp` are those of the lane. -/
def extractLoop (sp : Bytes) : Nat → Bytes → Nat → Nat → Option Bytes
  | 0, _, _, _ => none
  | fuel + 1, out, r2, r3 => do
    let r4 ← ldrb sp r2
    if sub32 r3 1 ≠ 0 then extractLoop sp fuel (out ++ [r4]) (r2 + 1) (sub32 r3 1) else some (out ++ [r4])

/-- `__KeccakP1600_ExtractBytesInLane` (s:877-889); the loop advances `r1` by `r3`. -/
def extractBytesInLane (k : Masks) (A : Words) (st : Rd) (r2 r3 : Nat) : Option Rd := do
  let w ← ldrd A st.r0
  let w := fromBitInterleaving k w.1 w.2
  let out ← extractLoop (Ref32.bytes w.1 ++ Ref32.bytes w.2) (2 ^ 32) st.out r2 r3
  some ⟨out, st.r0 + 8, st.r1 + r3⟩

/-- `KeccakP1600_ExtractBytes` (s:800-830). -/
def extractBytes (k : Masks) (A : Words) (offset length : Nat) : Option Bytes := do
  let st ← bytesFn (extractBytesInLane k A) (extractLanes k A (2 ^ 32)) ⟨[], offset / 8 * 8, 0⟩ offset length
  some st.out

/-- `__KeccakP1600_ExtractAndAddLanes` (s:950-964). -/
def extractAndAddLanes (k : Masks) (A : Words) (input : Bytes) : Nat → Rd → Nat → Option Rd
  | 0, _, _ => none
  | fuel + 1, st, r2 => do
    let w ← ldrd A st.r0
    let w := fromBitInterleaving k w.1 w.2
    let i0 ← ldrBuf input st.r1
    let i1 ← ldrBuf input (st.r1 + 4)
    let st := ⟨st.out ++ (Ref32.bytes (w.1 ^^^ i0) ++ Ref32.bytes (w.2 ^^^ i1)), st.r0 + 8, st.r1 + 8⟩
    if sub32 r2 1 ≠ 0 then extractAndAddLanes k A input fuel st (sub32 r2 1) else some st

/-- `__KeccakP1600_ExtractAndAddBytesInLane_Loop` (s:989-995). -/
def extractAndAddLoop (sp input : Bytes) : Nat → Bytes → Nat → Nat → Nat → Option (Bytes × Nat)
  | 0, _, _, _, _ => none
  | fuel + 1, out, r1, r2, r3 => do
    let r4 ← ldrb sp r2
    let r5 ← ldrb input r1
    if sub32 r3 1 ≠ 0 then extractAndAddLoop sp input fuel (out ++ [r4 ^^^ r5]) (r1 + 1) (r2 + 1) (sub32 r3 1)
    else some (out ++ [r4 ^^^ r5], r1 + 1)

/-- `__KeccakP1600_ExtractAndAddBytesInLane` (s:984-998). -/
def extractAndAddBytesInLane (k : Masks) (A : Words) (input : Bytes) (st : Rd) (r2 r3 : Nat) : Option Rd := do
  let w ← ldrd A st.r0
  let w := fromBitInterleaving k w.1 w.2
  let c ← extractAndAddLoop (Ref32.bytes w.1 ++ Ref32.bytes w.2) input (2 ^ 32) st.out st.r1 r2 r3
  some ⟨c.1, st.r0 + 8, c.2⟩

/-- `KeccakP1600_ExtractAndAddBytes` (s:898-929). -/
def extractAndAddBytes (k : Masks) (A : Words) (input : Bytes) (offset length : Nat) : Option Bytes := do
  let st ← bytesFn (extractAndAddBytesInLane k A input) (extractAndAddLanes k A input (2 ^ 32)) ⟨[], offset / 8 * 8, 0⟩
    offset length
  some st.out

/-- The functions on bytes of one of the two files. -/
def access (k : Masks) : Access Words where
  init := initState
  addByte := addByte k
  addBytes := addBytes k
  overwriteBytes := overwriteBytes k
  overwriteWithZeroes := overwriteWithZeroes
  extractBytes := extractBytes k
  extractAndAddBytes := extractAndAddBytes k

end Arm32

end KeccakP1600
