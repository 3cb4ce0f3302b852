import Verif.Model.KeccakArm32

/-!
# Keccak-p[1600] in 32-bit ARM assembly, in place: ARMv6-M

Models `lib/low/KeccakP-1600/ARM/KeccakP-1600-inplace-32bi-armv6m-le-gcc.s` ("s" below), of which the `armcc` file is the
same program in the syntax of another assembler.  The instructions of ARMv6-M have fewer registers and shorter offsets than
those of ARMv7-M: the pointer to the state `r0` is moved by 32 words back and forth, and the buffers are accessed by words
when they are aligned and by bytes when they are not.  The conventions are those of `Model/KeccakArm32.lean`; besides,

* in the permutation, the pointers `r0` and `r5` to the state are numbers of words, modulo 2^32; `ok` becomes false when
  a word outside of the state is accessed, and the result is then `none`;
* the functions on bytes have the addresses of the buffers as parameters, of which only the remainder modulo 4 matters; an
  access to a word at an address that is not a multiple of 4 is a fault, `none`.
-/

namespace KeccakP1600

namespace Arm6

open XoodooArm (sub32 add32 ldrb strb)
open Arm32 (set r1 r2 r3 r4 r5 r6 r7 r8 r9 r10 r11 r12 lr Wr Rd)

/-! ## The macros of the permutation -/

/-- The registers, the words of the state, the words at `[sp, #4*i]`, the pointers `r0` and `r5` in words from the
beginning of the state, and whether all accesses were inside the state. -/
structure M where
  r : Nat → Word
  A : Words
  s : Nat → Word
  p : Nat
  q : Nat
  ok : Bool

/-- s:152. -/ abbrev Aba0 : Nat := 0
/-- s:153. -/ abbrev Aba1 : Nat := 1
/-- s:154. -/ abbrev Abe0 : Nat := 2
/-- s:155. -/ abbrev Abe1 : Nat := 3
/-- s:156. -/ abbrev Abi0 : Nat := 4
/-- s:157. -/ abbrev Abi1 : Nat := 5
/-- s:158. -/ abbrev Abo0 : Nat := 6
/-- s:159. -/ abbrev Abo1 : Nat := 7
/-- s:160. -/ abbrev Abu0 : Nat := 8
/-- s:161. -/ abbrev Abu1 : Nat := 9
/-- s:162. -/ abbrev Aga0 : Nat := 10
/-- s:163. -/ abbrev Aga1 : Nat := 11
/-- s:164. -/ abbrev Age0 : Nat := 12
/-- s:165. -/ abbrev Age1 : Nat := 13
/-- s:166. -/ abbrev Agi0 : Nat := 14
/-- s:167. -/ abbrev Agi1 : Nat := 15
/-- s:168. -/ abbrev Ago0 : Nat := 16
/-- s:169. -/ abbrev Ago1 : Nat := 17
/-- s:170. -/ abbrev Agu0 : Nat := 18
/-- s:171. -/ abbrev Agu1 : Nat := 19
/-- s:172. -/ abbrev Aka0 : Nat := 20
/-- s:173. -/ abbrev Aka1 : Nat := 21
/-- s:174. -/ abbrev Ake0 : Nat := 22
/-- s:175. -/ abbrev Ake1 : Nat := 23
/-- s:176. -/ abbrev Aki0 : Nat := 24
/-- s:177. -/ abbrev Aki1 : Nat := 25
/-- s:178. -/ abbrev Ako0 : Nat := 26
/-- s:179. -/ abbrev Ako1 : Nat := 27
/-- s:180. -/ abbrev Aku0 : Nat := 28
/-- s:181. -/ abbrev Aku1 : Nat := 29
/-- s:182. -/ abbrev Ama0 : Nat := 30
/-- s:183. -/ abbrev Ama1 : Nat := 31
/-- s:184. -/ abbrev Ame0 : Nat := 32
/-- s:185. -/ abbrev Ame1 : Nat := 33
/-- s:186. -/ abbrev Ami0 : Nat := 34
/-- s:187. -/ abbrev Ami1 : Nat := 35
/-- s:188. -/ abbrev Amo0 : Nat := 36
/-- s:189. -/ abbrev Amo1 : Nat := 37
/-- s:190. -/ abbrev Amu0 : Nat := 38
/-- s:191. -/ abbrev Amu1 : Nat := 39
/-- s:192. -/ abbrev Asa0 : Nat := 40
/-- s:193. -/ abbrev Asa1 : Nat := 41
/-- s:194. -/ abbrev Ase0 : Nat := 42
/-- s:195. -/ abbrev Ase1 : Nat := 43
/-- s:196. -/ abbrev Asi0 : Nat := 44
/-- s:197. -/ abbrev Asi1 : Nat := 45
/-- s:198. -/ abbrev Aso0 : Nat := 46
/-- s:199. -/ abbrev Aso1 : Nat := 47
/-- s:200. -/ abbrev Asu0 : Nat := 48
/-- s:201. -/ abbrev Asu1 : Nat := 49

/-- s:204. -/ abbrev mDa0 : Nat := 0
/-- s:205. -/ abbrev mDa1 : Nat := 1
/-- s:206. -/ abbrev mDo0 : Nat := 2
/-- s:207. -/ abbrev mDo1 : Nat := 3
/-- s:208. -/ abbrev mDi0 : Nat := 4

/-- `ldr d, [...]` of the word `a` of the state. -/
def ldrAt (d a : Nat) (m : M) : M :=
  { m with r := set m.r d (m.A (Fin.ofNat 50 a)), ok := decide (a < 50) && m.ok }

/-- `str d, [...]` to the word `a` of the state. -/
def strAt (d a : Nat) (m : M) : M :=
  { m with A := put m.A (Fin.ofNat 50 a) (m.r d), ok := decide (a < 50) && m.ok }

/-- `adds r0, #32*4`. -/
def addR0 (m : M) : M := { m with p := add32 m.p 32 }

/-- `subs r0, #32*4`. -/
def subR0 (m : M) : M := { m with p := sub32 m.p 32 }

/-- `ldr d, [sp, #i]`. -/
def ldrSp (d i : Nat) (m : M) : M := { m with r := set m.r d (m.s i) }

/-- `str d, [sp, #i]`. -/
def strSp (d i : Nat) (m : M) : M := { m with s := set m.s i (m.r d) }

/-- `mov d, n` and `movs d, n`. -/
def mov (d n : Nat) (m : M) : M := { m with r := set m.r d (m.r n) }

/-- `movs d, #i`. -/
def movi (d i : Nat) (m : M) : M := { m with r := set m.r d (BitVec.ofNat 32 i) }

/-- `eors d, n, k`. -/
def eor (d n k : Nat) (m : M) : M := { m with r := set m.r d (m.r n ^^^ m.r k) }

/-- `bics d, n, k`. -/
def bic (d n k : Nat) (m : M) : M := { m with r := set m.r d (m.r n &&& ~~~ m.r k) }

/-- `rors d, k`: by the lowest byte of the register `k`. -/
def rors (d k : Nat) (m : M) : M := { m with r := set m.r d ((m.r d).rotateRight ((m.r k).toNat % 256)) }

/-- The lines of `load` and `store` that move `r0` before the access (s:216-220, 233-237). -/
def moveR0 (prev curr : Nat) (m : M) : M :=
  if 32 ≤ prev ∧ curr < 32 then subR0 m
  else if prev < 32 ∧ 32 ≤ curr then addR0 m
  else m

/-- `load` (s:214-229). -/
def load (result prev curr last : Nat) (m : M) : M :=
  let m := moveR0 prev curr m
  if 32 ≤ curr then
    let m := ldrAt result (m.p + (curr - 32)) m
    if last = 1 then subR0 m else m
  else ldrAt result (m.p + curr) m

/-- `store` (s:231-246). -/
def store (result prev curr last : Nat) (m : M) : M :=
  let m := moveR0 prev curr m
  if 32 ≤ curr then
    let m := strAt result (m.p + (curr - 32)) m
    if last = 1 then subR0 m else m
  else strAt result (m.p + curr) m

/-- `xor5` (s:248-259); the parameters `prev` and `last` are not used. -/
def xor5 (result b g k mm s : Nat) (m : M) : M :=
  let m := load result 0 b 0 m
  let m := load r1 b g 0 m
  let m := eor result result r1 m
  let m := load r1 g k 0 m
  let m := eor result result r1 m
  let m := load r1 k mm 0 m
  let m := eor result result r1 m
  let m := load r1 mm s 1 m
  eor result result r1 m

/-- `xorrol` (s:261-265). -/
def xorrol (result aa bb : Nat) (m : M) : M :=
  let m := mov result bb m
  let m := rors result r2 m
  eor result result aa m

/-- `xorrolR2` (s:267-270). -/
def xorrolR2 (aa bb : Nat) (m : M) : M :=
  let m := rors bb r2 m
  eor bb bb aa m

/-- `xorh` (s:272-276). -/
def xorh (result aa bb : Nat) (m : M) : M :=
  let m := mov r1 bb m
  let m := eor r1 r1 aa m
  mov result r1 m

/-- `xandnot` (s:279-284). -/
def xandnot (resofs aa bb cc prev last : Nat) (m : M) : M :=
  let m := mov r1 cc m
  let m := bic r1 r1 bb m
  let m := eor r1 r1 aa m
  store r1 prev resofs last m

/-- `xandnotR4` (s:286-290). -/
def xandnotR4 (resofs aa bb cc prev last : Nat) (m : M) : M :=
  let m := bic cc cc bb m
  let m := eor cc cc aa m
  store cc prev resofs last m

/-- `movs r1, #32-rot; rors d, r1`. -/
def rorBy (d rot : Nat) (m : M) : M := rors d r1 (movi r1 (32 - rot) m)

/-- `KeccakThetaRhoPiChiIota` (s:292-332); `c` is the word at `[r1, #offset]`, `r1` being the pointer to
the constants, whose value is not kept here.  The lines for `last` are in `permuteLoop`. -/
def thetaRhoPiChiIota (aA1 aDax aA2 aDex rot2 aA3 aDix rot3 aA4 aDox rot4 aA5 aDux rot5 : Nat) (c : Word) (m : M) : M :=
  let m := load r3 0 aA1 0 m
  let m := load r4 aA1 aA2 0 m
  let m := load r5 aA2 aA3 0 m
  let m := load r6 aA3 aA4 0 m
  let m := load r7 aA4 aA5 0 m
  let m := mov r1 aDax m
  let m := eor r3 r3 r1 m
  let m := eor r5 r5 aDix m
  let m := mov r1 aDex m
  let m := eor r4 r4 r1 m
  let m := mov r1 aDox m
  let m := eor r6 r6 r1 m
  let m := mov r1 aDux m
  let m := eor r7 r7 r1 m
  let m := rorBy r4 rot2 m
  let m := rorBy r5 rot3 m
  let m := rorBy r6 rot4 m
  let m := rorBy r7 rot5 m
  let m := xandnot aA2 r4 r5 r6 aA5 0 m
  let m := xandnot aA3 r5 r6 r7 aA2 0 m
  let m := xandnot aA4 r6 r7 r3 aA3 0 m
  let m := xandnot aA5 r7 r3 r4 aA4 1 m
  let m := bic r5 r5 r4 m
  let m := { m with r := set m.r r4 c }
  let m := eor r3 r3 r5 m
  let m := eor r3 r3 r4 m
  strAt r3 (m.p + aA1) m

/-- `.if \rot2 > 0`. -/
def rorByIf (d rot : Nat) (m : M) : M := if 0 < rot then rorBy d rot m else m

/-- `KeccakThetaRhoPiChi` (s:334-367). -/
def thetaRhoPiChi (aB1 aA1 aDax rot1 aB2 aA2 aDex rot2 aB3 aA3 aDix rot3 aB4 aA4 aDox rot4 aB5 aA5 aDux rot5 : Nat)
    (m : M) : M :=
  let m := load aB1 0 aA1 0 m
  let m := load aB2 aA1 aA2 0 m
  let m := load aB3 aA2 aA3 0 m
  let m := load aB4 aA3 aA4 0 m
  let m := load aB5 aA4 aA5 0 m
  let m := mov r1 aDax m
  let m := eor aB1 aB1 r1 m
  let m := eor aB3 aB3 aDix m
  let m := mov r1 aDex m
  let m := eor aB2 aB2 r1 m
  let m := mov r1 aDox m
  let m := eor aB4 aB4 r1 m
  let m := mov r1 aDux m
  let m := eor aB5 aB5 r1 m
  let m := rorBy aB1 rot1 m
  let m := rorByIf aB2 rot2 m
  let m := rorBy aB3 rot3 m
  let m := rorBy aB4 rot4 m
  let m := rorBy aB5 rot5 m
  let m := xandnot aA1 r3 r4 r5 aA5 0 m
  let m := xandnot aA2 r4 r5 r6 aA1 0 m
  let m := xandnotR4 aA5 r7 r3 r4 aA2 0 m
  let m := xandnotR4 aA4 r6 r7 r3 aA5 0 m
  xandnotR4 aA3 r5 r6 r7 aA4 1 m

/-! ## The rounds -/

/-- `KeccakRound0`, the theta effect (s:369-408). -/
def theta0 (m : M) : M :=
  let m := movi r2 31 m
  let m := xor5 r3 Abu0 Agu0 Aku0 Amu0 Asu0 m
  let m := xor5 r7 Abe1 Age1 Ake1 Ame1 Ase1 m
  let m := xorrol r6 r3 r7 m
  let m := strSp r6 mDa0 m
  let m := xor5 r6 Abu1 Agu1 Aku1 Amu1 Asu1 m
  let m := xor5 r5 Abe0 Age0 Ake0 Ame0 Ase0 m
  let m := xorh r8 r6 r5 m
  let m := mov lr r5 m
  let m := strSp r1 mDa1 m
  let m := xor5 r5 Abi0 Agi0 Aki0 Ami0 Asi0 m
  let m := xorrolR2 r5 r6 m
  let m := strSp r6 mDo0 m
  let m := xor5 r4 Abi1 Agi1 Aki1 Ami1 Asi1 m
  let m := eor r3 r3 r4 m
  let m := strSp r3 mDo1 m
  let m := xor5 r3 Aba0 Aga0 Aka0 Ama0 Asa0 m
  let m := xorrolR2 r3 r4 m
  let m := mov r10 r4 m
  let m := xor5 r6 Aba1 Aga1 Aka1 Ama1 Asa1 m
  let m := xorh r11 r6 r5 m
  let m := xor5 r4 Abo1 Ago1 Ako1 Amo1 Aso1 m
  let m := mov r1 lr m
  let m := xorrol r5 r1 r4 m
  let m := strSp r5 mDi0 m
  let m := xor5 r5 Abo0 Ago0 Ako0 Amo0 Aso0 m
  let m := eor r7 r7 r5 m
  let m := xorrolR2 r5 r6 m
  let m := mov r12 r6 m
  let m := eor r4 r4 r3 m
  let m := mov lr r4 m
  let m := mov r2 r7 m
  let m := ldrSp r1 mDo0 m
  mov r9 r1 m

/-- `KeccakRound0`, the rest (s:409-429); `c0` and `c1` are the words read at `#0` and `#4`. -/
def rest0 (c0 c1 : Word) (m : M) : M :=
  let m := thetaRhoPiChi r5 Aka1 r8 2 r6 Ame1 r11 23 r7 Asi1 r2 31 r3 Abo0 r9 14 r4 Agu0 r12 10 m
  let m := thetaRhoPiChi r7 Asa1 r8 9 r3 Abe0 r10 0 r4 Agi1 r2 3 r5 Ako0 r9 12 r6 Amu1 lr 4 m
  let m := ldrSp r1 mDa0 m
  let m := mov r8 r1 m
  let m := thetaRhoPiChi r4 Aga0 r8 18 r5 Ake0 r10 5 r6 Ami1 r2 8 r7 Aso0 r9 28 r3 Abu1 lr 14 m
  let m := thetaRhoPiChi r6 Ama0 r8 20 r7 Ase1 r11 1 r3 Abi1 r2 31 r4 Ago0 r9 27 r5 Aku0 r12 19 m
  let m := ldrSp r1 mDo1 m
  let m := mov r9 r1 m
  let m := thetaRhoPiChiIota Aba0 r8 Age0 r10 22 Aki1 r2 22 Amo1 r9 11 Asu0 r12 7 c0 m
  let m := ldrSp r2 mDi0 m
  let m := thetaRhoPiChi r5 Aka0 r8 1 r6 Ame0 r10 22 r7 Asi0 r2 30 r3 Abo1 r9 14 r4 Agu1 lr 10 m
  let m := thetaRhoPiChi r7 Asa0 r8 9 r3 Abe1 r11 1 r4 Agi0 r2 3 r5 Ako1 r9 13 r6 Amu0 r12 4 m
  let m := ldrSp r1 mDa1 m
  let m := mov r8 r1 m
  let m := thetaRhoPiChi r4 Aga1 r8 18 r5 Ake1 r11 5 r6 Ami0 r2 7 r7 Aso1 r9 28 r3 Abu0 r12 13 m
  let m := thetaRhoPiChi r6 Ama1 r8 21 r7 Ase0 r10 1 r3 Abi0 r2 31 r4 Ago1 r9 28 r5 Aku1 lr 20 m
  let m := ldrSp r1 mDo0 m
  let m := mov r9 r1 m
  thetaRhoPiChiIota Aba1 r8 Age1 r11 22 Aki0 r2 21 Amo0 r9 10 Asu1 lr 7 c1 m

/-- `KeccakRound0` (s:369-429). -/
def round0 (c0 c1 : Word) (m : M) : M := rest0 c0 c1 (theta0 m)

/-- `KeccakRound1`, the theta effect (s:431-471). -/
def theta1 (m : M) : M :=
  let m := movi r2 31 m
  let m := xor5 r3 Asu0 Agu0 Amu0 Abu1 Aku1 m
  let m := xor5 r7 Age1 Ame0 Abe0 Ake1 Ase1 m
  let m := xorrol r6 r3 r7 m
  let m := strSp r6 mDa0 m
  let m := xor5 r6 Asu1 Agu1 Amu1 Abu0 Aku0 m
  let m := xor5 r5 Age0 Ame1 Abe1 Ake0 Ase0 m
  let m := xorh r8 r6 r5 m
  let m := mov lr r5 m
  let m := strSp r1 mDa1 m
  let m := xor5 r5 Aki1 Asi1 Agi0 Ami1 Abi0 m
  let m := xorrolR2 r5 r6 m
  let m := strSp r6 mDo0 m
  let m := xor5 r4 Aki0 Asi0 Agi1 Ami0 Abi1 m
  let m := eor r3 r3 r4 m
  let m := strSp r3 mDo1 m
  let m := xor5 r3 Aba0 Aka1 Asa0 Aga0 Ama1 m
  let m := xorrolR2 r3 r4 m
  let m := mov r10 r4 m
  let m := xor5 r6 Aba1 Aka0 Asa1 Aga1 Ama0 m
  let m := xorh r11 r6 r5 m
  let m := xor5 r4 Amo0 Abo1 Ako0 Aso1 Ago0 m
  let m := mov r1 lr m
  let m := xorrol r5 r1 r4 m
  let m := strSp r5 mDi0 m
  let m := xor5 r5 Amo1 Abo0 Ako1 Aso0 Ago1 m
  let m := eor r7 r7 r5 m
  let m := xorrolR2 r5 r6 m
  let m := mov r12 r6 m
  let m := eor r4 r4 r3 m
  let m := mov lr r4 m
  let m := mov r2 r7 m
  let m := ldrSp r1 mDo0 m
  mov r9 r1 m

/-- `KeccakRound1`, the rest (s:472-492); `c0` and `c1` are the words read at `#8` and `#12`. -/
def rest1 (c0 c1 : Word) (m : M) : M :=
  let m := thetaRhoPiChi r5 Asa1 r8 2 r6 Ake1 r11 23 r7 Abi1 r2 31 r3 Amo1 r9 14 r4 Agu0 r12 10 m
  let m := thetaRhoPiChi r7 Ama0 r8 9 r3 Age0 r10 0 r4 Asi0 r2 3 r5 Ako1 r9 12 r6 Abu0 lr 4 m
  let m := ldrSp r1 mDa0 m
  let m := mov r8 r1 m
  let m := thetaRhoPiChi r4 Aka1 r8 18 r5 Abe1 r10 5 r6 Ami0 r2 8 r7 Ago1 r9 28 r3 Asu1 lr 14 m
  let m := thetaRhoPiChi r6 Aga0 r8 20 r7 Ase1 r11 1 r3 Aki0 r2 31 r4 Abo0 r9 27 r5 Amu0 r12 19 m
  let m := ldrSp r1 mDo1 m
  let m := mov r9 r1 m
  let m := thetaRhoPiChiIota Aba0 r8 Ame1 r10 22 Agi1 r2 22 Aso1 r9 11 Aku1 r12 7 c0 m
  let m := ldrSp r2 mDi0 m
  let m := thetaRhoPiChi r5 Asa0 r8 1 r6 Ake0 r10 22 r7 Abi0 r2 30 r3 Amo0 r9 14 r4 Agu1 lr 10 m
  let m := thetaRhoPiChi r7 Ama1 r8 9 r3 Age1 r11 1 r4 Asi1 r2 3 r5 Ako0 r9 13 r6 Abu1 r12 4 m
  let m := ldrSp r1 mDa1 m
  let m := mov r8 r1 m
  let m := thetaRhoPiChi r4 Aka0 r8 18 r5 Abe0 r11 5 r6 Ami1 r2 7 r7 Ago0 r9 28 r3 Asu0 r12 13 m
  let m := thetaRhoPiChi r6 Aga1 r8 21 r7 Ase0 r10 1 r3 Aki1 r2 31 r4 Abo1 r9 28 r5 Amu1 lr 20 m
  let m := ldrSp r1 mDo0 m
  let m := mov r9 r1 m
  thetaRhoPiChiIota Aba1 r8 Ame0 r11 22 Agi0 r2 21 Aso0 r9 10 Aku0 lr 7 c1 m

/-- `KeccakRound1` (s:431-492). -/
def round1 (c0 c1 : Word) (m : M) : M := rest1 c0 c1 (theta1 m)

/-- `KeccakRound2`, the theta effect (s:494-534). -/
def theta2 (m : M) : M :=
  let m := movi r2 31 m
  let m := xor5 r3 Aku1 Agu0 Abu1 Asu1 Amu1 m
  let m := xor5 r7 Ame0 Ake0 Age0 Abe0 Ase1 m
  let m := xorrol r6 r3 r7 m
  let m := strSp r6 mDa0 m
  let m := xor5 r6 Aku0 Agu1 Abu0 Asu0 Amu0 m
  let m := xor5 r5 Ame1 Ake1 Age1 Abe1 Ase0 m
  let m := xorh r8 r6 r5 m
  let m := mov lr r5 m
  let m := strSp r1 mDa1 m
  let m := xor5 r5 Agi1 Abi1 Asi1 Ami0 Aki1 m
  let m := xorrolR2 r5 r6 m
  let m := strSp r6 mDo0 m
  let m := xor5 r4 Agi0 Abi0 Asi0 Ami1 Aki0 m
  let m := eor r3 r3 r4 m
  let m := strSp r3 mDo1 m
  let m := xor5 r3 Aba0 Asa1 Ama1 Aka1 Aga1 m
  let m := xorrolR2 r3 r4 m
  let m := mov r10 r4 m
  let m := xor5 r6 Aba1 Asa0 Ama0 Aka0 Aga0 m
  let m := xorh r11 r6 r5 m
  let m := xor5 r4 Aso0 Amo0 Ako1 Ago0 Abo0 m
  let m := mov r1 lr m
  let m := xorrol r5 r1 r4 m
  let m := strSp r5 mDi0 m
  let m := xor5 r5 Aso1 Amo1 Ako0 Ago1 Abo1 m
  let m := eor r7 r7 r5 m
  let m := xorrolR2 r5 r6 m
  let m := mov r12 r6 m
  let m := eor r4 r4 r3 m
  let m := mov lr r4 m
  let m := mov r2 r7 m
  let m := ldrSp r1 mDo0 m
  mov r9 r1 m

/-- `KeccakRound2`, the rest (s:535-555); `c0` and `c1` are the words read at `#16` and `#20`. -/
def rest2 (c0 c1 : Word) (m : M) : M :=
  let m := thetaRhoPiChi r5 Ama0 r8 2 r6 Abe0 r11 23 r7 Aki0 r2 31 r3 Aso1 r9 14 r4 Agu0 r12 10 m
  let m := thetaRhoPiChi r7 Aga0 r8 9 r3 Ame1 r10 0 r4 Abi0 r2 3 r5 Ako0 r9 12 r6 Asu0 lr 4 m
  let m := ldrSp r1 mDa0 m
  let m := mov r8 r1 m
  let m := thetaRhoPiChi r4 Asa1 r8 18 r5 Age1 r10 5 r6 Ami1 r2 8 r7 Abo1 r9 28 r3 Aku0 lr 14 m
  let m := thetaRhoPiChi r6 Aka1 r8 20 r7 Ase1 r11 1 r3 Agi0 r2 31 r4 Amo1 r9 27 r5 Abu1 r12 19 m
  let m := ldrSp r1 mDo1 m
  let m := mov r9 r1 m
  let m := thetaRhoPiChiIota Aba0 r8 Ake1 r10 22 Asi0 r2 22 Ago0 r9 11 Amu1 r12 7 c0 m
  let m := ldrSp r2 mDi0 m
  let m := thetaRhoPiChi r5 Ama1 r8 1 r6 Abe1 r10 22 r7 Aki1 r2 30 r3 Aso0 r9 14 r4 Agu1 lr 10 m
  let m := thetaRhoPiChi r7 Aga1 r8 9 r3 Ame0 r11 1 r4 Abi1 r2 3 r5 Ako1 r9 13 r6 Asu1 r12 4 m
  let m := ldrSp r1 mDa1 m
  let m := mov r8 r1 m
  let m := thetaRhoPiChi r4 Asa0 r8 18 r5 Age0 r11 5 r6 Ami0 r2 7 r7 Abo0 r9 28 r3 Aku1 r12 13 m
  let m := thetaRhoPiChi r6 Aka0 r8 21 r7 Ase0 r10 1 r3 Agi1 r2 31 r4 Amo0 r9 28 r5 Abu0 lr 20 m
  let m := ldrSp r1 mDo0 m
  let m := mov r9 r1 m
  thetaRhoPiChiIota Aba1 r8 Ake0 r11 22 Asi1 r2 21 Ago1 r9 10 Amu0 lr 7 c1 m

/-- `KeccakRound2` (s:494-555). -/
def round2 (c0 c1 : Word) (m : M) : M := rest2 c0 c1 (theta2 m)

/-- `KeccakRound3`, the theta effect (s:557-597). -/
def theta3 (m : M) : M :=
  let m := movi r2 31 m
  let m := xor5 r3 Amu1 Agu0 Asu1 Aku0 Abu0 m
  let m := xor5 r7 Ake0 Abe1 Ame1 Age0 Ase1 m
  let m := xorrol r6 r3 r7 m
  let m := strSp r6 mDa0 m
  let m := xor5 r6 Amu0 Agu1 Asu0 Aku1 Abu1 m
  let m := xor5 r5 Ake1 Abe0 Ame0 Age1 Ase0 m
  let m := xorh r8 r6 r5 m
  let m := mov lr r5 m
  let m := strSp r1 mDa1 m
  let m := xor5 r5 Asi0 Aki0 Abi1 Ami1 Agi1 m
  let m := xorrolR2 r5 r6 m
  let m := strSp r6 mDo0 m
  let m := xor5 r4 Asi1 Aki1 Abi0 Ami0 Agi0 m
  let m := eor r3 r3 r4 m
  let m := strSp r3 mDo1 m
  let m := xor5 r3 Aba0 Ama0 Aga1 Asa1 Aka0 m
  let m := xorrolR2 r3 r4 m
  let m := mov r10 r4 m
  let m := xor5 r6 Aba1 Ama1 Aga0 Asa0 Aka1 m
  let m := xorh r11 r6 r5 m
  let m := xor5 r4 Ago1 Aso0 Ako0 Abo0 Amo1 m
  let m := mov r1 lr m
  let m := xorrol r5 r1 r4 m
  let m := strSp r5 mDi0 m
  let m := xor5 r5 Ago0 Aso1 Ako1 Abo1 Amo0 m
  let m := eor r7 r7 r5 m
  let m := xorrolR2 r5 r6 m
  let m := mov r12 r6 m
  let m := eor r4 r4 r3 m
  let m := mov lr r4 m
  let m := mov r2 r7 m
  let m := ldrSp r1 mDo0 m
  mov r9 r1 m

/-- `KeccakRound3`, the rest (s:598-618); `c0` and `c1` are the words read at `#24` and `#28`. -/
def rest3 (c0 c1 : Word) (m : M) : M :=
  let m := thetaRhoPiChi r5 Aga0 r8 2 r6 Age0 r11 23 r7 Agi0 r2 31 r3 Ago0 r9 14 r4 Agu0 r12 10 m
  let m := thetaRhoPiChi r7 Aka1 r8 9 r3 Ake1 r10 0 r4 Aki1 r2 3 r5 Ako1 r9 12 r6 Aku1 lr 4 m
  let m := ldrSp r1 mDa0 m
  let m := mov r8 r1 m
  let m := thetaRhoPiChi r4 Ama0 r8 18 r5 Ame0 r10 5 r6 Ami0 r2 8 r7 Amo0 r9 28 r3 Amu0 lr 14 m
  let m := thetaRhoPiChi r6 Asa1 r8 20 r7 Ase1 r11 1 r3 Asi1 r2 31 r4 Aso1 r9 27 r5 Asu1 r12 19 m
  let m := ldrSp r1 mDo1 m
  let m := mov r9 r1 m
  let m := thetaRhoPiChiIota Aba0 r8 Abe0 r10 22 Abi0 r2 22 Abo0 r9 11 Abu0 r12 7 c0 m
  let m := ldrSp r2 mDi0 m
  let m := thetaRhoPiChi r5 Aga1 r8 1 r6 Age1 r10 22 r7 Agi1 r2 30 r3 Ago1 r9 14 r4 Agu1 lr 10 m
  let m := thetaRhoPiChi r7 Aka0 r8 9 r3 Ake0 r11 1 r4 Aki0 r2 3 r5 Ako0 r9 13 r6 Aku0 r12 4 m
  let m := ldrSp r1 mDa1 m
  let m := mov r8 r1 m
  let m := thetaRhoPiChi r4 Ama1 r8 18 r5 Ame1 r11 5 r6 Ami1 r2 7 r7 Amo1 r9 28 r3 Amu1 r12 13 m
  let m := thetaRhoPiChi r6 Asa0 r8 21 r7 Ase0 r10 1 r3 Asi0 r2 31 r4 Aso0 r9 28 r5 Asu0 lr 20 m
  let m := ldrSp r1 mDo0 m
  let m := mov r9 r1 m
  thetaRhoPiChiIota Aba1 r8 Abe1 r11 22 Abi1 r2 21 Abo1 r9 10 Abu1 lr 7 c1 m

/-- `KeccakRound3` (s:557-618). -/
def round3 (c0 c1 : Word) (m : M) : M := rest3 c0 c1 (theta3 m)

/-! ## The permutation -/

/-- The table from `KeccakP1600_Permute_RoundConstants24` to the terminator (s:1587-1616). -/
def roundConstants : List Word := [
  0x00000001, 0x00000000,
  0x00000000, 0x00000089,
  0x00000000, 0x8000008b,
  0x00000000, 0x80008080,
  0x00000001, 0x0000008b,
  0x00000001, 0x00008000,
  0x00000001, 0x80008088,
  0x00000001, 0x80000082,
  0x00000000, 0x0000000b,
  0x00000000, 0x0000000a,
  0x00000001, 0x00008082,
  0x00000000, 0x00008003,
  0x00000001, 0x0000808b,
  0x00000001, 0x8000000b,
  0x00000001, 0x8000008a,
  0x00000001, 0x80000081,
  0x00000000, 0x80000081,
  0x00000000, 0x80000008,
  0x00000000, 0x00000083,
  0x00000000, 0x80008003,
  0x00000001, 0x80008088,
  0x00000000, 0x80000088,
  0x00000001, 0x00008000,
  0x00000000, 0x80008082,
  0x000000FF]

/-- Reading the word at an offset in bytes from `KeccakP1600_Permute_RoundConstants24`; outside of the table the value is
not known, `none`. -/
def rc (a : Nat) : Option Word := if a % 4 = 0 then roundConstants[a / 4]? else none

/-- `KeccakP1600_Permute_RoundConstants12` (s:1601), 12 constants after the beginning of the table. -/
abbrev roundConstants12 : Nat := 96
/-- `KeccakP1600_Permute_RoundConstants0` (s:1610). -/
abbrev roundConstants0 : Nat := 160
/-- `KeccakP1600_Permute_RoundConstants0Mod4` (s:1615). -/
abbrev roundConstants0Mod4 : Nat := 192

/-- The state of the machine, if all accesses were inside the state of the permutation. -/
def checked (m : M) : Option M := if m.ok = true then some m else none

/-- A round, with the words at `[r1, #off]` and `[r1, #off+4]`. -/
def step (round : Word → Word → M → M) (t off : Nat) (m : M) : Option M := do
  let c0 ← rc (t + off)
  let c1 ← rc (t + (off + 4))
  checked (round c0 c1 m)

/-- The rounds from one of the labels `KeccakP1600_Permute_RoundLoop` (0), `KeccakP1600_Permute_Round3Mod4` (3),
`KeccakP1600_Permute_Round2Mod4` (2) and `KeccakP1600_Permute_Round1Mod4` (1) on (s:1633-1640). -/
def rounds (label t : Nat) (m : M) : Option M :=
  match label with
  | 0 => do
    let m ← step round0 t 0 m
    let m ← step round1 t 8 m
    let m ← step round2 t 16 m
    step round3 t 24 m
  | 3 => do
    let m ← step round1 t 8 m
    let m ← step round2 t 16 m
    step round3 t 24 m
  | 2 => do
    let m ← step round2 t 16 m
    step round3 t 24 m
  | _ => step round3 t 24 m

/-- The loop of `KeccakP1600_Permute` (s:1633-1643), `t` being the pointer at `[sp, #mRC]`; the pointer is advanced and the
next constant compared at the end of the last round (s:325-330). -/
def permuteLoop : Nat → Nat → Nat → M → Option M
  | 0, _, _, _ => none
  | fuel + 1, label, t, m => do
    let m ← rounds label t m
    let r2 ← rc (t + 32)
    if r2 = 0xFF then some m else permuteLoop fuel 0 (t + 32) m

/-- `KeccakP1600_Permute` (s:1623-1653). -/
def permute (rcPtr : Nat) (m : M) : Option M := permuteLoop (2 ^ 32) 0 rcPtr m

/-- `ldrf` (s:1430-1436). -/
def ldrf (d off : Nat) (m : M) : M := if 32 ≤ off then ldrAt d (m.q + (off - 32)) m else ldrAt d (m.p + off) m

/-- `strf` (s:1438-1444). -/
def strf (d off : Nat) (m : M) : M := if 32 ≤ off then strAt d (m.q + (off - 32)) m else strAt d (m.p + off) m

/-- `SwapPI13` (s:1446-1463). -/
def SwapPI13 (in0 in1 in2 in3 eo0 eo1 eo2 eo3 : Nat) (m : M) : M :=
  let m := ldrf r3 (in0 + 0) m
  let m := ldrf r4 (in0 + 1) m
  let m := ldrf r2 (in1 + 0) m
  let m := ldrf r1 (in1 + 1) m
  let m := strf r2 (in0 + eo0) m
  let m := strf r1 (in0 + (eo0 ^^^ 1)) m
  let m := ldrf r2 (in2 + 0) m
  let m := ldrf r1 (in2 + 1) m
  let m := strf r2 (in1 + eo1) m
  let m := strf r1 (in1 + (eo1 ^^^ 1)) m
  let m := ldrf r2 (in3 + 0) m
  let m := ldrf r1 (in3 + 1) m
  let m := strf r2 (in2 + eo2) m
  let m := strf r1 (in2 + (eo2 ^^^ 1)) m
  let m := strf r3 (in3 + eo3) m
  strf r4 (in3 + (eo3 ^^^ 1)) m

/-- `SwapPI2` (s:1465-1482). -/
def SwapPI2 (in0 in1 in2 in3 : Nat) (m : M) : M :=
  let m := ldrf r3 (in0 + 0) m
  let m := ldrf r4 (in0 + 1) m
  let m := ldrf r2 (in1 + 0) m
  let m := ldrf r1 (in1 + 1) m
  let m := strf r2 (in0 + 1) m
  let m := strf r1 (in0 + 0) m
  let m := strf r3 (in1 + 1) m
  let m := strf r4 (in1 + 0) m
  let m := ldrf r3 (in2 + 0) m
  let m := ldrf r4 (in2 + 1) m
  let m := ldrf r2 (in3 + 0) m
  let m := ldrf r1 (in3 + 1) m
  let m := strf r2 (in2 + 1) m
  let m := strf r1 (in2 + 0) m
  let m := strf r3 (in3 + 1) m
  strf r4 (in3 + 0) m

/-- `SwapEO` (s:1484-1489). -/
def SwapEO (even odd : Nat) (m : M) : M :=
  let m := ldrf r3 even m
  let m := ldrf r4 odd m
  let m := strf r3 odd m
  strf r4 even m

/-- `KeccakP1600_Permute_Nrounds1Mod4` (s:1524-1533). -/
def swap1 (m : M) : M :=
  let m := SwapPI13 Aga0 Aka0 Asa0 Ama0 1 0 1 0 m
  let m := SwapPI13 Abe0 Age0 Ame0 Ake0 0 1 0 1 m
  let m := SwapPI13 Abi0 Aki0 Agi0 Asi0 1 0 1 0 m
  let m := SwapEO Ami0 Ami1 m
  let m := SwapPI13 Abo0 Amo0 Aso0 Ago0 1 0 1 0 m
  let m := SwapEO Ako0 Ako1 m
  SwapPI13 Abu0 Asu0 Aku0 Amu0 0 1 0 1 m

/-- `KeccakP1600_Permute_Nrounds3Mod4` (s:1538-1547). -/
def swap3 (m : M) : M :=
  let m := SwapPI13 Aga0 Ama0 Asa0 Aka0 0 1 0 1 m
  let m := SwapPI13 Abe0 Ake0 Ame0 Age0 1 0 1 0 m
  let m := SwapPI13 Abi0 Asi0 Agi0 Aki0 0 1 0 1 m
  let m := SwapEO Ami0 Ami1 m
  let m := SwapPI13 Abo0 Ago0 Aso0 Amo0 0 1 0 1 m
  let m := SwapEO Ako0 Ako1 m
  SwapPI13 Abu0 Amu0 Aku0 Asu0 1 0 1 0 m

/-- `KeccakP1600_Permute_Nrounds2Mod4` (s:1550-1557). -/
def swap2 (m : M) : M :=
  let m := SwapPI2 Aga0 Asa0 Aka0 Ama0 m
  let m := SwapPI2 Abe0 Ame0 Age0 Ake0 m
  let m := SwapPI2 Abi0 Agi0 Aki0 Asi0 m
  let m := SwapPI2 Abo0 Aso0 Ago0 Amo0 m
  SwapPI2 Abu0 Aku0 Amu0 Asu0 m

/-- `mov r5, r0; adds r5, r5, #128` (s:1520-1521). -/
def setR5 (m : M) : M := { m with q := add32 m.p 32 }

/-- `KeccakP1600_Permute_Nrounds` (s:1498-1559), with the values of the registers and of the stack before the call in
`m`.  `lsls r2, r1, #30` keeps bits 0 and 1 of `nrounds`, and `lsls r3, r3, #31` puts bit 1 in the carry and bit 0 in the
sign. -/
def permuteNrounds (m : M) (nrounds : Nat) : Option M :=
  if BitVec.ofNat 32 nrounds <<< 30 = (0 : Word) then
    permute (sub32 roundConstants0Mod4 (nrounds * 8 % 2 ^ 32)) m
  else
    let t := sub32 roundConstants0 (nrounds / 4 * 32 % 2 ^ 32)
    let m := setR5 m
    let r3 := BitVec.ofNat 32 nrounds
    let carry := r3.getLsbD 1
    let r3 := r3 <<< 31
    if carry = false then permuteLoop (2 ^ 32) 1 t (swap1 m)
    else if r3.getLsbD 31 = false then permuteLoop (2 ^ 32) 2 t (swap2 m)
    else permuteLoop (2 ^ 32) 3 t (swap3 m)

/-- `KeccakP1600_Permute_12rounds` (s:1569-1571). -/
def permute12 (m : M) : Option M := permute roundConstants12 m

/-- `KeccakP1600_Permute_24rounds` (s:1581-1583). -/
def permute24 (m : M) : Option M := permute 0 m

/-! ## Bit interleaving -/

/-- The masks at `pMask` for `toBitInterleaving`. -/
structure ToMasks where
  (m0 m4 m8 m12 m16 m20 m24 m28 : Word)

/-- `toBitInterleaving in0,in1,out0,out1,t,tt,pMask` (s:33-116): `out0` and `out1`. -/
def toBitInterleaving (k : ToMasks) (in0 in1 : Word) : Word × Word :=
  let out0 := in0
  let out0 := out0 &&& k.m0
  let out0 := out0 ||| (out0 >>> 1)
  let out0 := out0 &&& k.m4
  let out0 := out0 ||| (out0 >>> 2)
  let out0 := out0 &&& k.m8
  let out0 := out0 ||| (out0 >>> 4)
  let out0 := out0 &&& k.m12
  let out0 := out0 ||| (out0 >>> 8)
  let out1 := in1
  let out1 := out1 &&& k.m0
  let out1 := out1 ||| (out1 >>> 1)
  let out1 := out1 &&& k.m4
  let out1 := out1 ||| (out1 >>> 2)
  let out1 := out1 &&& k.m8
  let out1 := out1 ||| (out1 >>> 4)
  let out1 := out1 &&& k.m12
  let out1 := out1 ||| (out1 >>> 8)
  let out0 := out0 <<< 16
  let out0 := out0 >>> 16
  let out1 := out1 <<< 16
  let out0 := out0 ||| out1
  let out1 := in0
  let out1 := out1 &&& k.m16
  let out1 := out1 ||| (out1 <<< 1)
  let out1 := out1 &&& k.m20
  let out1 := out1 ||| (out1 <<< 2)
  let out1 := out1 &&& k.m24
  let out1 := out1 ||| (out1 <<< 4)
  let out1 := out1 &&& k.m28
  let out1 := out1 ||| (out1 <<< 8)
  let tt := in1
  let tt := tt &&& k.m16
  let tt := tt ||| (tt <<< 1)
  let tt := tt &&& k.m20
  let tt := tt ||| (tt <<< 2)
  let tt := tt &&& k.m24
  let tt := tt ||| (tt <<< 4)
  let tt := tt &&& k.m28
  let tt := tt ||| (tt <<< 8)
  let out1 := out1 >>> 16
  let tt := tt >>> 16
  let tt := tt <<< 16
  let out1 := out1 ||| tt
  (out0, out1)

/-- The masks at `pMask` for `fromBitInterleaving`. -/
structure FromMasks where
  (f0 f4 f8 f12 : Word)

/-- `fromBitInterleavingStep` (s:119-129). -/
def fromBitInterleavingStep (x mask : Word) (shift : Nat) : Word :=
  let t := x >>> shift
  let t := t ^^^ x
  let t := t &&& mask
  let x := x ^^^ t
  let t := t <<< shift
  x ^^^ t

/-- `fromBitInterleaving x0, x1, t, tt, pMask` (s:131-149): the new values of `x0` and `x1`. -/
def fromBitInterleaving (k : FromMasks) (x0 x1 : Word) : Word × Word :=
  let t := x0
  let x0 := x0 <<< 16
  let x0 := x0 >>> 16
  let tt := x1 <<< 16
  let x0 := x0 ||| tt
  let x1 := x1 >>> 16
  let x1 := x1 <<< 16
  let t := t >>> 16
  let x1 := x1 ||| t
  let x0 := fromBitInterleavingStep x0 k.f0 8
  let x0 := fromBitInterleavingStep x0 k.f4 4
  let x0 := fromBitInterleavingStep x0 k.f8 2
  let x0 := fromBitInterleavingStep x0 k.f12 1
  let x1 := fromBitInterleavingStep x1 k.f0 8
  let x1 := fromBitInterleavingStep x1 k.f4 4
  let x1 := fromBitInterleavingStep x1 k.f8 2
  let x1 := fromBitInterleavingStep x1 k.f12 1
  (x0, x1)

/-- `KeccakP1600_AddBytes_ToBitInterleavingConstants` (s:756-764). -/
def addBytesMasks : ToMasks :=
  ⟨0x55555555, 0x33333333, 0x0F0F0F0F, 0x00FF00FF, 0xAAAAAAAA, 0xCCCCCCCC, 0xF0F0F0F0, 0xFF00FF00⟩

/-- `KeccakP1600_OverwriteBytes_ToBitInterleavingConstants` (s:935-943). -/
def overwriteBytesMasks : ToMasks :=
  ⟨0x55555555, 0x33333333, 0x0F0F0F0F, 0x00FF00FF, 0xAAAAAAAA, 0xCCCCCCCC, 0xF0F0F0F0, 0xFF00FF00⟩

/-- `KeccakP1600_ExtractBytes_FromBitInterleavingConstants` (s:1147-1151). -/
def extractBytesMasks : FromMasks := ⟨0x0000FF00, 0x00F000F0, 0x0C0C0C0C, 0x22222222⟩

/-- `KeccakP1600_ExtractAndAddBytes_FromBitInterleavingConstants` (s:1298-1302). -/
def extractAndAddBytesMasks : FromMasks := ⟨0x0000FF00, 0x00F000F0, 0x0C0C0C0C, 0x22222222⟩

/-! ## Functions on bytes -/

/-- `ldr a, [r0]; ldr b, [r0, #4]` or `ldmia r0, {a,b}`; the state is aligned. -/
def ldm (A : Words) (p : Nat) : Option (Word × Word) := Arm32.ldrd A p

/-- `stmia r0!, {a,b}`. -/
def stm (A : Words) (p : Nat) (w : Word × Word) : Option Words := Arm32.strd A p w

/-- `lsls r4, r1, #30; bne`: whether the address is not a multiple of 4. -/
def unaligned (addr : Nat) : Bool := BitVec.ofNat 32 addr <<< 30 != (0 : Word)

/-- `ldmia r1!, {r6,r7}` in a buffer at the address `ad`. -/
def ldmBuf (ad : Nat) (b : Bytes) (p : Nat) : Option (Word × Word) :=
  if (ad + p) % 4 ≠ 0 then none
  else do
    let r6 ← Arm32.ldrBuf b p
    let r7 ← Arm32.ldrBuf b (p + 4)
    some (r6, r7)

/-- Four bytes read one by one (s:801-810, 811-820, 976-985, 986-995). -/
def ldrBytes (b : Bytes) (p : Nat) : Option Word := do
  let b0 ← ldrb b p
  let b1 ← ldrb b (p + 1)
  let b2 ← ldrb b (p + 2)
  let b3 ← ldrb b (p + 3)
  let r := b0.setWidth 32
  let r := r ||| (b1.setWidth 32 <<< 8)
  let r := r ||| (b2.setWidth 32 <<< 16)
  some (r ||| (b3.setWidth 32 <<< 24))

/-- Eight bytes read one by one. -/
def ldrBytes2 (b : Bytes) (p : Nat) : Option (Word × Word) := do
  let r6 ← ldrBytes b p
  let r7 ← ldrBytes b (p + 4)
  some (r6, r7)

/-- `KeccakP1600_Initialize` (s:638-656): ten times five words. -/
def initState : Words := fun _ => 0

/-- `KeccakP1600_AddByte` (s:666-695); the 8 bytes at `sp`. -/
def addByte (A : Words) (byte : Byte) (offset : Nat) : Option Words := do
  let r0 := offset / 8 * 8
  let r2 := offset % 8
  let sp ← strb (List.replicate 8 0) r2 byte
  let t := toBitInterleaving addBytesMasks (Ref32.word sp 0) (Ref32.word sp 4)
  let w ← ldm A r0
  stm A r0 (t.1 ^^^ w.1, t.2 ^^^ w.2)

/-- `__KeccakP1600_AddLanes_LoopAligned` (s:787-799) and `__KeccakP1600_AddLanes_LoopUnaligned` (s:800-832), which differ
only in how the 8 bytes of data are read. -/
def addLanesLoop (read : Nat → Option (Word × Word)) : Nat → Wr → Nat → Option Wr
  | 0, _, _ => none
  | fuel + 1, st, r2 => do
    let d ← read st.r1
    let t := toBitInterleaving addBytesMasks d.1 d.2
    let w ← ldm st.A st.r0
    let A ← stm st.A st.r0 (t.1 ^^^ w.1, t.2 ^^^ w.2)
    let st := ⟨A, st.r0 + 8, st.r1 + 8⟩
    if sub32 r2 1 ≠ 0 then addLanesLoop read fuel st (sub32 r2 1) else some st

/-- `__KeccakP1600_AddLanes` (s:784-832), the data being at the address `ad`. -/
def addLanes (ad : Nat) (data : Bytes) (st : Wr) (r2 : Nat) : Option Wr :=
  if unaligned (ad + st.r1) then addLanesLoop (ldrBytes2 data) (2 ^ 32) st r2
  else addLanesLoop (ldmBuf ad data) (2 ^ 32) st r2

/-- `__KeccakP1600_AddBytesInLane` (s:853-874); the loop (s:858-864) is that of ARMv7-M. -/
def addBytesInLane (data : Bytes) (st : Wr) (r2 r3 : Nat) : Option Wr := do
  let c ← Arm32.copyLoop data (2 ^ 32) (List.replicate 8 0) st.r1 r2 r3
  let t := toBitInterleaving addBytesMasks (Ref32.word c.1 0) (Ref32.word c.1 4)
  let w ← ldm st.A st.r0
  let A ← stm st.A st.r0 (t.1 ^^^ w.1, t.2 ^^^ w.2)
  some ⟨A, st.r0 + 8, c.2⟩

/-- The structure of `KeccakP1600_AddBytes` (s:705-754), `KeccakP1600_OverwriteBytes` (s:884-933), and, but for the registers,
of `KeccakP1600_ExtractBytes` (s:1100-1145) and `KeccakP1600_ExtractAndAddBytes` (s:1248-1296): the rest of the first lane,
whole lanes, the beginning of the last lane.  The number of bytes left is reduced modulo 8 only after whole lanes. -/
def bytesFn {σ : Type} (inLane : σ → Nat → Nat → Option σ) (lanes : σ → Nat → Option σ) (st : σ) (offset length : Nat) :
    Option σ :=
  if length = 0 then some st
  else do
    let r2 := offset % 8
    let r4 := Arm32.minS length (8 - r2)
    let st ← Arm32.skip0 r2 st (inLane st r2 r4)
    let r3 := if r2 = 0 then length else sub32 length r4
    let st ← Arm32.skip0 (r3 / 8) st (lanes st (r3 / 8))
    let r3 := if r3 / 8 = 0 then r3 else r3 % 8
    Arm32.skip0 r3 st (inLane st 0 r3)

/-- `KeccakP1600_AddBytes` (s:705-754). -/
def addBytes (ad : Nat) (A : Words) (data : Bytes) (offset length : Nat) : Option Words := do
  let st ← bytesFn (addBytesInLane data) (addLanes ad data) ⟨A, offset / 8 * 8, 0⟩ offset length
  some st.A

/-- `__KeccakP1600_OverwriteLanes_LoopAligned` (s:966-974) and `__KeccakP1600_OverwriteLanes_LoopUnaligned` (s:975-1003). -/
def overwriteLanesLoop (read : Nat → Option (Word × Word)) : Nat → Wr → Nat → Option Wr
  | 0, _, _ => none
  | fuel + 1, st, r2 => do
    let d ← read st.r1
    let A ← stm st.A st.r0 (toBitInterleaving overwriteBytesMasks d.1 d.2)
    let st := ⟨A, st.r0 + 8, st.r1 + 8⟩
    if sub32 r2 1 ≠ 0 then overwriteLanesLoop read fuel st (sub32 r2 1) else some st

/-- `__KeccakP1600_OverwriteLanes` (s:963-1003), the data being at the address `ad`. -/
def overwriteLanes (ad : Nat) (data : Bytes) (st : Wr) (r2 : Nat) : Option Wr :=
  if unaligned (ad + st.r1) then overwriteLanesLoop (ldrBytes2 data) (2 ^ 32) st r2
  else overwriteLanesLoop (ldmBuf ad data) (2 ^ 32) st r2

/-- `__KeccakP1600_OverwriteBytesInLane` (s:1024-1053); the loop (s:1033-1041) is that of ARMv7-M, split in two, one for the
bytes and one for the mask. -/
def overwriteBytesInLane (data : Bytes) (st : Wr) (r2 r3 : Nat) : Option Wr := do
  let r4 := Arm32.lslReg 0x0F (r2 * 4)
  let r6 := r4
  let r6 ← Arm32.maskLoop (2 ^ 32) r6 r4 r3
  let c ← Arm32.copyLoop data (2 ^ 32) (List.replicate 8 0) st.r1 r2 r3
  let t := toBitInterleaving overwriteBytesMasks (Ref32.word c.1 0) (Ref32.word c.1 4)
  let w ← ldm st.A st.r0
  let A ← stm st.A st.r0 (t.1 ^^^ (w.1 &&& ~~~ r6), t.2 ^^^ (w.2 &&& ~~~ r6))
  some ⟨A, st.r0 + 8, c.2⟩

/-- `KeccakP1600_OverwriteBytes` (s:884-933). -/
def overwriteBytes (ad : Nat) (A : Words) (data : Bytes) (offset length : Nat) : Option Words := do
  let st ← bytesFn (overwriteBytesInLane data) (overwriteLanes ad data) ⟨A, offset / 8 * 8, 0⟩ offset length
  some st.A

/-- `KeccakP1600_OverwriteWithZeroes` (s:1063-1090); the loops (s:1069-1072, 1078-1082) are those of ARMv7-M. -/
def overwriteWithZeroes (A : Words) (byteCount : Nat) : Option Words := do
  let p ← Arm32.skip0 (byteCount / 8) (A, 0) (Arm32.zeroLanes (2 ^ 32) A 0 (byteCount / 8))
  if byteCount % 8 = 0 then some p.1
  else do
    let r2 ← Arm32.maskLoop (2 ^ 32) 0 0x0F (byteCount % 8)
    let w ← ldm p.1 p.2
    stm p.1 p.2 (w.1 &&& ~~~ r2, w.2 &&& ~~~ r2)

/-- `stmia r1!, {r6,r7}` to a buffer at the address `ad`: the bytes written. -/
def stmBuf (ad p : Nat) (w : Word × Word) : Option Bytes :=
  if (ad + p) % 4 ≠ 0 then none else some (Ref32.bytes w.1 ++ Ref32.bytes w.2)

/-- The bytes written one by one by `strb r, [r1, #i]` and `lsrs r, r, #8` (s:1184-1190, 1191-1197). -/
def strBytes (w : Word) : Bytes :=
  let b0 := w.setWidth 8
  let w := w >>> 8
  let b1 := w.setWidth 8
  let w := w >>> 8
  let b2 := w.setWidth 8
  let w := w >>> 8
  [b0, b1, b2, w.setWidth 8]

/-- `__KeccakP1600_ExtractLanes_LoopAligned` (s:1174-1180) and `__KeccakP1600_ExtractLanes_LoopUnaligned` (s:1181-1201), which
differ only in how the 8 bytes are written. -/
def extractLanesLoop (write : Nat → Word × Word → Option Bytes) (A : Words) : Nat → Rd → Nat → Option Rd
  | 0, _, _ => none
  | fuel + 1, st, r2 => do
    let w ← ldm A st.r0
    let o ← write st.r1 (fromBitInterleaving extractBytesMasks w.1 w.2)
    let st := ⟨st.out ++ o, st.r0 + 8, st.r1 + 8⟩
    if sub32 r2 1 ≠ 0 then extractLanesLoop write A fuel st (sub32 r2 1) else some st

/-- `__KeccakP1600_ExtractLanes` (s:1171-1201), the output being at the address `ad`. -/
def extractLanes (ad : Nat) (A : Words) (st : Rd) (r2 : Nat) : Option Rd :=
  if unaligned (ad + st.r1) then
    extractLanesLoop (fun _ w => some (strBytes w.1 ++ strBytes w.2)) A (2 ^ 32) st r2
  else extractLanesLoop (stmBuf ad) A (2 ^ 32) st r2

/-- `__KeccakP1600_ExtractBytesInLane` (s:1222-1238); the loop (s:1230-1236) is that of ARMv7-M and advances `r1` by `r3`. -/
def extractBytesInLane (A : Words) (st : Rd) (r2 r3 : Nat) : Option Rd := do
  let w ← ldm A st.r0
  let w := fromBitInterleaving extractBytesMasks w.1 w.2
  let out ← Arm32.extractLoop (Ref32.bytes w.1 ++ Ref32.bytes w.2) (2 ^ 32) st.out r2 r3
  some ⟨out, st.r0 + 8, st.r1 + r3⟩

/-- `KeccakP1600_ExtractBytes` (s:1100-1145). -/
def extractBytes (ad : Nat) (A : Words) (offset length : Nat) : Option Bytes := do
  let st ← bytesFn (extractBytesInLane A) (extractLanes ad A) ⟨[], offset / 8 * 8, 0⟩ offset length
  some st.out

/-- A lane of `__KeccakP1600_ExtractAndAddLanes_LoopAligned` (s:1333-1339), from the address `ad` to the address `out`. -/
def addAligned (ad out : Nat) (input : Bytes) (p : Nat) (w : Word × Word) : Option Bytes :=
  if (ad + p) % 4 ≠ 0 then none
  else do
    let i0 ← Arm32.ldrBuf input p
    let i1 ← Arm32.ldrBuf input (p + 4)
    stmBuf out p (w.1 ^^^ i0, w.2 ^^^ i1)

/-- Four bytes of a lane of `__KeccakP1600_ExtractAndAddLanes_LoopUnaligned` (s:1347-1361, 1362-1376). -/
def addUnaligned4 (input : Bytes) (p : Nat) (w : Word) : Option Bytes := do
  let b0 ← ldrb input p
  let o0 := (b0.setWidth 32 ^^^ w).setWidth 8
  let w := w >>> 8
  let b1 ← ldrb input (p + 1)
  let o1 := (b1.setWidth 32 ^^^ w).setWidth 8
  let w := w >>> 8
  let b2 ← ldrb input (p + 2)
  let o2 := (b2.setWidth 32 ^^^ w).setWidth 8
  let w := w >>> 8
  let b3 ← ldrb input (p + 3)
  let o3 := (b3.setWidth 32 ^^^ w).setWidth 8
  some [o0, o1, o2, o3]

/-- A lane of `__KeccakP1600_ExtractAndAddLanes_LoopUnaligned` (s:1346-1379). -/
def addUnaligned (input : Bytes) (p : Nat) (w : Word × Word) : Option Bytes := do
  let a ← addUnaligned4 input p w.1
  let b ← addUnaligned4 input (p + 4) w.2
  some (a ++ b)

/-- `__KeccakP1600_ExtractAndAddLanes_LoopAligned` (s:1330-1342) and `__KeccakP1600_ExtractAndAddLanes_LoopUnaligned`
(s:1343-1382).  The pointers to the input and to the output advance together. -/
def extractAndAddLanesLoop (write : Nat → Word × Word → Option Bytes) (A : Words) : Nat → Rd → Nat → Option Rd
  | 0, _, _ => none
  | fuel + 1, st, r2 => do
    let w ← ldm A st.r0
    let o ← write st.r1 (fromBitInterleaving extractAndAddBytesMasks w.1 w.2)
    let st := ⟨st.out ++ o, st.r0 + 8, st.r1 + 8⟩
    if sub32 r2 1 ≠ 0 then extractAndAddLanesLoop write A fuel st (sub32 r2 1) else some st

/-- `__KeccakP1600_ExtractAndAddLanes` (s:1324-1382). -/
def extractAndAddLanes (ad out : Nat) (A : Words) (input : Bytes) (st : Rd) (r2 : Nat) : Option Rd :=
  if unaligned (ad + st.r1) then extractAndAddLanesLoop (addUnaligned input) A (2 ^ 32) st r2
  else if unaligned (out + st.r1) then extractAndAddLanesLoop (addUnaligned input) A (2 ^ 32) st r2
  else extractAndAddLanesLoop (addAligned ad out input) A (2 ^ 32) st r2

/-- `__KeccakP1600_ExtractAndAddBytesInLane` (s:1405-1426); the loop (s:1414-1423) is that of ARMv7-M. -/
def extractAndAddBytesInLane (A : Words) (input : Bytes) (st : Rd) (r2 r3 : Nat) : Option Rd := do
  let w ← ldm A st.r0
  let w := fromBitInterleaving extractAndAddBytesMasks w.1 w.2
  let c ← Arm32.extractAndAddLoop (Ref32.bytes w.1 ++ Ref32.bytes w.2) input (2 ^ 32) st.out st.r1 r2 r3
  some ⟨c.1, st.r0 + 8, c.2⟩

/-- `KeccakP1600_ExtractAndAddBytes` (s:1248-1296). -/
def extractAndAddBytes (ad out : Nat) (A : Words) (input : Bytes) (offset length : Nat) : Option Bytes := do
  let st ← bytesFn (extractAndAddBytesInLane A input) (extractAndAddLanes ad out A input) ⟨[], offset / 8 * 8, 0⟩
    offset length
  some st.out

/-- The functions on bytes, the input being at the address `ad` and the output at the address `out`. -/
def access (ad out : Nat) : Access Words where
  init := initState
  addByte := addByte
  addBytes := addBytes ad
  overwriteBytes := overwriteBytes ad
  overwriteWithZeroes := overwriteWithZeroes
  extractBytes := extractBytes out
  extractAndAddBytes := extractAndAddBytes ad out

end Arm6

end KeccakP1600
